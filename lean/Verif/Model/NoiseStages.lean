/- Model of the later stages of rendering (imaging.py:42-72 and 176-266): the drawing of the parameters and the
noise after the jitter.  Pixels are real numbers or nan (`none`).  The stages that call skimage follow its
`random_noise`, `adjust_gamma` and `equalize_adapthist` as known; the version is not pinned. -/
import Verif.Model.Imaging
import Verif.Model.Rng
import Mathlib.Analysis.SpecialFunctions.Pow.Real
import Mathlib.Data.Real.Archimedean

namespace PD
open Classical

/-- Arrays drawn by a numpy generator, of the given height and width. -/
structure PixelNoise (G : Type) where
  /-- `rng.uniform(low, high, size)` -/
  uniform : ℝ → ℝ → ℕ → ℕ → G → List (List ℝ) × G
  /-- `rng.exponential(scale, size)`, `0 ≤ scale` -/
  exponential : ℝ → ℕ → ℕ → G → List (List ℝ) × G
  /-- `rng.normal(0, deviation, size)`, `0 ≤ deviation` -/
  normal : ℝ → ℕ → ℕ → G → List (List ℝ) × G
  /-- `rng.random(size)` -/
  random : ℕ → ℕ → G → List (List ℝ) × G

/-- numpy's documented shapes and ranges. -/
structure PixelNoise.Lawful {G : Type} (nz : PixelNoise G) : Prop where
  uniform_size : ∀ lo hi h w g, IsImage h w (nz.uniform lo hi h w g).1
  uniform_mem : ∀ lo hi h w g, lo ≤ hi → ∀ row ∈ (nz.uniform lo hi h w g).1, ∀ v ∈ row, lo ≤ v ∧ v ≤ hi
  exponential_size : ∀ s h w g, IsImage h w (nz.exponential s h w g).1
  exponential_nonneg : ∀ s h w g, 0 ≤ s → ∀ row ∈ (nz.exponential s h w g).1, ∀ v ∈ row, 0 ≤ v
  normal_size : ∀ s h w g, IsImage h w (nz.normal s h w g).1
  random_size : ∀ h w g, IsImage h w (nz.random h w g).1
  random_mem : ∀ h w g, ∀ row ∈ (nz.random h w g).1, ∀ v ∈ row, 0 ≤ v ∧ v < 1

/-- skimage's `equalize_adapthist(image, clip_limit=0.01)`.  What it makes of an image with nan is left open. -/
structure Clahe where
  run : List (List (Option ℝ)) → List (List (Option ℝ))
  size : ∀ h w img, IsImage h w img → IsImage h w (run img)
  range : ∀ img, (∀ row ∈ img, ∀ p ∈ row, ∃ v : ℝ, p = some v) →
    ∀ row ∈ run img, ∀ p ∈ row, ∃ v : ℝ, p = some v ∧ 0 ≤ v ∧ v ≤ 1

/-- imaging.py:29-39 `ImageGenerationParameters`. -/
structure StemParams where
  intensityExponent : ℝ
  gaussianVariance : ℝ
  jitterRate : ℝ
  poissonMultiplier : ℝ
  saltAndPepper : ℝ
  blurAmount : ℝ
  contrastGamma : ℝ
  exponentialLambda : ℝ
  uniformScale : ℝ
  imageSize : ℕ

/-- imaging.py:42-54 `sample_image_parameters`. -/
noncomputable def sampleImageParameters {G : Type} (rng : Rng ℝ G) (size : ℕ) (g : G) : StemParams × G :=
  let (intensity, g) := rng.uniform (14 / 10) 2 g
  let (gaussian, g) := rng.uniform 0 (5 / 1000) g
  let (jitter, g) := rng.uniform 0 5 g
  let (poisson, g) := rng.exponential 15 g
  let (saltPepper, g) := rng.uniform 0 (1 / 1000) g
  let (blur, g) := rng.uniform 0 1 g
  let (gamma, g) := rng.uniform (7 / 10) (13 / 10) g
  let (lam, g) := rng.uniform 0 (2 / 10) g
  let (scale, g) := rng.uniform 0 (2 / 10) g
  (⟨intensity, gaussian, jitter, poisson + 1, saltPepper, blur, gamma, lam, scale, size⟩, g)

/-- imaging.py:57-72 `sample_noisy_image_parameters`. -/
noncomputable def sampleNoisyImageParameters {G : Type} (rng : Rng ℝ G) (size : ℕ) (g : G) : StemParams × G :=
  let (intensity, g) := rng.uniform (14 / 10) 2 g
  let (gaussian, g) := rng.uniform 0 (3 / 10) g
  let (jitter, g) := rng.uniform 0 5 g
  let (poisson, g) := rng.exponential 15 g
  let (saltPepper, g) := rng.uniform 0 (1 / 100) g
  let (blur, g) := rng.uniform 0 (25 / 100) g
  let (gamma, g) := rng.uniform (5 / 10) (15 / 10) g
  let (lam, g) := rng.uniform 0 (25 / 100) g
  let (scale, g) := rng.uniform 0 (25 / 100) g
  (⟨intensity, gaussian, jitter, poisson + 1, saltPepper, blur, gamma, lam, scale, size⟩, g)

/-! ### The stages -/

/-- `image.shape[1]`. -/
def imageWidth {P : Type} (img : List (List P)) : ℕ := (img.headD []).length

/-- Arithmetic between images of the same shape. -/
def zipImages {A B C : Type} (f : A → B → C) (a : List (List A)) (b : List (List B)) : List (List C) :=
  List.zipWith (List.zipWith f) a b

/-- skimage's `_bernoulli(p, shape, rng)`, as used at imaging.py:209. -/
noncomputable def PixelNoise.chance {G : Type} (nz : PixelNoise G) (p : ℝ) (h w : ℕ) (g : G) : List (List Bool) × G :=
  if p = 0 then (List.replicate h (List.replicate w false), g)
  else if p = 1 then (List.replicate h (List.replicate w true), g)
  else
    let (u, g') := nz.random h w g
    (u.map (fun row => row.map (fun v => decide (v ≤ p))), g')

/-- `np.clip`; nan stays nan. -/
noncomputable def clipImage (lo hi : ℝ) (img : List (List (Option ℝ))) : List (List (Option ℝ)) :=
  img.map (fun row => row.map (fun p => p.map (fun v => min hi (max lo v))))

/-- skimage's `random_noise`: the lower limit is -1 if `image.min() < 0`, which is false if a pixel is nan. -/
noncomputable def lowClip (img : List (List (Option ℝ))) : ℝ :=
  match definite img with
  | none => 0
  | some im => if ∃ row ∈ im, ∃ v ∈ row, v < 0 then -1 else 0

/-- imaging.py:206-209 `apply_salt_and_pepper_noise`: `random_noise(image, mode='s&p', amount)`.  Each pixel is
flipped with probability `amount`, a flipped one is salt (1) or pepper (the lower limit) with probability 1/2.
`min` of no pixels raises `ValueError`. -/
noncomputable def applySaltAndPepper {G : Type} (nz : PixelNoise G) (amount : ℝ) (img : List (List (Option ℝ))) (g : G) :
    Except Err (List (List (Option ℝ)) × G) :=
  if img.flatten.isEmpty then .error .valueError
  else
    let low := lowClip img
    let (flipped, g1) := nz.chance amount img.length (imageWidth img) g
    let (salted, g2) := nz.chance (1 / 2) img.length (imageWidth img) g1
    let marks := zipImages (fun f s => (f, s)) flipped salted
    let out := zipImages (fun p (m : Bool × Bool) =>
      if m.1 && m.2 then some 1 else if m.1 && !m.2 then some low else p) img marks
    .ok (clipImage low 1 out, g2)

/-- imaging.py:217-218 `apply_contrast`: `adjust_gamma(image, gamma)`.  `nan ** 0` is 1. -/
noncomputable def applyContrast (gamma : ℝ) (img : List (List (Option ℝ))) : Except Err (List (List (Option ℝ))) :=
  if gamma < 0 then .error .valueError
  else if ∃ row ∈ img, ∃ v : ℝ, some v ∈ row ∧ v < 0 then .error .valueError
  else .ok (img.map (fun row => row.map (fun p =>
    match p with
    | some v => some (v ^ gamma)
    | none => if gamma = 0 then some 1 else none)))

/-- `image / np.max(image)` for images without negative pixels: the maximum is nan if a pixel is. -/
noncomputable def divideByMax (img : List (List (Option ℝ))) : Except Err (List (List (Option ℝ))) :=
  match definite img with
  | none => .ok (img.map (fun row => row.map (fun _ => none)))
  | some im => normalise im

/-- Adding an array of numbers. -/
noncomputable def addNoise (img : List (List (Option ℝ))) (noise : List (List ℝ)) : List (List (Option ℝ)) :=
  zipImages (fun p v => p.map (fun x => x + v)) img noise

/-- imaging.py:231-236 `apply_uniform_noise`, for scales that are not negative. -/
noncomputable def applyUniform {G : Type} (nz : PixelNoise G) (scale : ℝ) (img : List (List (Option ℝ))) (g : G) :
    Except Err (List (List (Option ℝ)) × G) :=
  let (noise, g') := nz.uniform 0 scale img.length (imageWidth img) g
  match divideByMax (addNoise img noise) with
  | .error e => .error e
  | .ok out => .ok (out, g')

/-- imaging.py:221-228 `apply_exponential_noise`; numpy rejects negative scales. -/
noncomputable def applyExponential {G : Type} (nz : PixelNoise G) (scale : ℝ) (img : List (List (Option ℝ))) (g : G) :
    Except Err (List (List (Option ℝ)) × G) :=
  if scale < 0 then .error .valueError
  else
    let (noise, g') := nz.exponential scale img.length (imageWidth img) g
    match divideByMax (addNoise img noise) with
    | .error e => .error e
    | .ok out => .ok (out, g')

/-- imaging.py:176-185 `apply_gaussian_noise`: `random_noise(image, mode='gaussian', var)`.  The deviation is
`var ** 0.5`, a complex number for negative `var`, which numpy does not accept. -/
noncomputable def applyGaussian {G : Type} (nz : PixelNoise G) (variance : ℝ) (img : List (List (Option ℝ))) (g : G) :
    Except Err (List (List (Option ℝ)) × G) :=
  if img.flatten.isEmpty then .error .valueError
  else if variance < 0 then .error .typeError
  else
    let (noise, g') := nz.normal (Real.sqrt variance) img.length (imageWidth img) g
    .ok (clipImage (lowClip img) 1 (addNoise img noise), g')

/-- imaging.py:258-266: the stages of `generate_stem_image` after the jitter. -/
noncomputable def laterStages {G : Type} (nz : PixelNoise G) (cl : Clahe) (params : StemParams)
    (img : List (List (Option ℝ))) (g : G) : Except Err (List (List (Option ℝ)) × G) :=
  match applySaltAndPepper nz params.saltAndPepper img g with
  | .error e => .error e
  | .ok (img, g) =>
    match applyContrast params.contrastGamma img with
    | .error e => .error e
    | .ok img =>
      match applyUniform nz params.uniformScale img g with
      | .error e => .error e
      | .ok (img, g) =>
        match applyExponential nz params.exponentialLambda img g with
        | .error e => .error e
        | .ok (img, g) =>
          match applyGaussian nz params.gaussianVariance img g with
          | .error e => .error e
          | .ok (img, g) => .ok (cl.run img, g)

/-- The parameters of the stages up to the jitter. -/
noncomputable def StemParams.early (p : StemParams) : ImageParams ℝ :=
  ⟨p.blurAmount, p.poissonMultiplier, p.jitterRate, p.imageSize⟩

/-- imaging.py:239-266 `generate_stem_image`, for buffers that are not negative. -/
noncomputable def generateStemImage {G : Type} (bl : Blur ℝ) (pr : PoissonImages ℝ G) (jr : PoissonRng ℝ G)
    (nz : PixelNoise G) (cl : Clahe) (grid : Grid ℝ) (fov : Fov ℝ) (params : StemParams) (g : G) (buffer : ℝ) :
    Except Err (List (List (Option ℝ)) × G) :=
  match stemCounts bl pr jr (fun x => x ^ params.intensityExponent) grid fov params.early g buffer with
  | .error e => .error e
  | .ok (img, g) => laterStages nz cl params img g

end PD
