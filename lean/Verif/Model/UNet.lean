/- Model of the two networks (atom_detection/model.py:26-85, image_alignment/model.py:26-105).  What a layer
computes from its inputs depends on trained weights and is arbitrary here; which inputs it sees and the sizes of
its outputs are as in the code. -/
import Verif.Model.Basic
import Mathlib.Algebra.Order.Field.Basic

namespace PD

variable {K : Type} [Field K] [LinearOrder K]

/-- An image: height, width and the features of each pixel. -/
structure Img (K : Type) where
  h : ℕ
  w : ℕ
  px : ℕ → ℕ → List K

/-- The features of a pixel, `none` outside the image (where convolutions are padded with zeros). -/
def Img.at? (im : Img K) (r c : ℤ) : Option (List K) :=
  if 0 ≤ r ∧ r < im.h ∧ 0 ≤ c ∧ c < im.w then some (im.px r.toNat c.toNat) else none

/-- A layer of a network: from the features it sees to `out` features.  This stands for a convolution with its
normalisation (`LayerNorm`, over the features of one pixel) and activation. -/
structure Layer (K : Type) where
  out : ℕ
  f : (ℤ → ℤ → Option (List K)) → List K
  len : ∀ x, (f x).length = out

/-- `nn.Conv(kernel_size=(2k+1, 2k+1), padding='SAME')` with what follows for each pixel: sees the pixels at most
`k` away in each direction. -/
def convolve (k : ℕ) (l : Layer K) (im : Img K) : Img K :=
  ⟨im.h, im.w, fun r c => l.f (fun dr dc =>
    if |dr| ≤ k ∧ |dc| ≤ k then im.at? (r + dr) (c + dc) else none)⟩

/-- `nn.max_pool(x, window_shape=(2, 2), strides=(2, 2))`: without padding, so that a last odd row or column is
dropped. -/
def maxPool (im : Img K) : Img K :=
  ⟨im.h / 2, im.w / 2, fun r c =>
    ((im.px (2 * r) (2 * c)).zipWith max (im.px (2 * r) (2 * c + 1))).zipWith max
      ((im.px (2 * r + 1) (2 * c)).zipWith max (im.px (2 * r + 1) (2 * c + 1)))⟩

/-- The rows (or columns) that row `o` of the output of a transposed convolution sees: with kernel 3, stride 2 and
padding 'SAME' two rows of padding are put before the rows, which are two apart, and one behind; row `o` sees the
positions from `o - 2` to `o`. -/
def seesRow (o : ℤ) (i : ℤ) : Bool := decide (o - 2 ≤ 2 * i ∧ 2 * i ≤ o)

/-- `nn.ConvTranspose(kernel_size=(3, 3), strides=(2, 2), padding='SAME')`: each of the four kinds of pixels (even
and odd rows and columns) sees the input pixels under its kernel; `dr` and `dc` are relative to the pixel's
half. -/
def upsample (l : Bool → Bool → Layer K) (im : Img K) : Img K :=
  ⟨2 * im.h, 2 * im.w, fun r c => (l (r % 2 == 0) (c % 2 == 0)).f (fun dr dc =>
    if seesRow r (r / 2 + dr) && seesRow c (c / 2 + dc) then im.at? (r / 2 + dr) (c / 2 + dc) else none)⟩

/-- `jnp.concatenate((a, b), axis=-1)`: an error unless height and width agree. -/
def joinFeatures (a b : Img K) : Except Err (Img K) :=
  if a.h = b.h ∧ a.w = b.w then .ok ⟨a.h, a.w, fun r c => a.px r c ++ b.px r c⟩ else .error .typeError

/-- The layers at one depth. -/
structure Level (K : Type) where
  down : Layer K
  up : Bool → Bool → Layer K
  join : Layer K

/-- `recurse` (atom_detection/model.py:50-76, image_alignment/model.py:51-80), with one entry for each of
`features` from the present depth on: the output and the features at the greatest depth. -/
def unetRecurse : List (Level K) → Img K → Except Err (Img K × Img K)
  | [], _ => .error .indexError
  | [l], x => let x := convolve 1 l.down x; .ok (x, x)
  | l :: l' :: rest, x =>
    let x := convolve 1 l.down x
    match unetRecurse (l' :: rest) (maxPool x) with
    | .error e => .error e
    | .ok (down, bottom) =>
      match joinFeatures (upsample l.up down) x with
      | .error e => .error e
      | .ok both => .ok (convolve 1 l.join both, bottom)

/-- atom_detection/model.py:78-85 `UNet.__call__` -/
def unet (levels : List (Level K)) (output : Layer K) (x : Img K) : Except Err (Img K) :=
  match unetRecurse levels x with
  | .error e => .error e
  | .ok (y, _) => .ok (convolve 0 output y)

/-- `x.mean((-2, -3))`: the mean over all pixels of each feature, `n` of them. -/
def meanFeatures (n : ℕ) (im : Img K) : List K :=
  (List.range n).map (fun i =>
    ((List.range im.h).flatMap (fun r => (List.range im.w).map (fun c => (im.px r c).getD i 0))).sum / (im.h * im.w : ℕ))

/-- The layers of `GlobalLocalUNet` besides those of the levels. -/
structure AlignerNet (K : Type) where
  input : Layer K
  levels : List (Level K)
  localOut : Layer K
  globalConv : Layer K
  globalOut : ℕ
  dense : List K → List K
  denseLen : ∀ x, (dense x).length = globalOut

/-- image_alignment/model.py:82-105 `GlobalLocalUNet.__call__` -/
def globalLocalUNet (net : AlignerNet K) (x : Img K) : Except Err (Img K × List K) :=
  match unetRecurse net.levels (convolve 3 net.input x) with
  | .error e => .error e
  | .ok (y, bottom) =>
    .ok (convolve 3 net.localOut y,
      net.dense (meanFeatures net.globalConv.out (convolve 0 net.globalConv bottom)))

end PD
