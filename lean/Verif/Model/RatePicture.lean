/- Model of the contour picture of learned rates (rate_learning/learn_rates.py:975-1047).  Drawing itself is
matplotlib's; what is modelled are the data it is given. -/
import Verif.Model.RatePlots

namespace PD
variable {K : Type} [Field K] [LinearOrder K]

/-- learn_rates.py:999-1004: the points of `np.meshgrid` in the order of `reshape(-1, 2)`: rows share their
second coordinate. -/
def pictureGrid (range : K) (m : ℕ) : List (V2 K) :=
  (linspace (-range) range m).flatMap (fun y => (linspace (-range) range m).map (fun x => ⟨x, y⟩))

/-- What is drawn for one neighbour: the contour's points and heights, the place of the maximum, the place of
the neighbour, the colours, and the maximum that is returned. -/
structure NeighborPicture (K : Type) where
  contour : List (V2 K × K)
  cmap : String
  marked : V2 K
  neighbor : V2 K
  colour : String
  maxRate : K

/-- learn_rates.py:1015-1019: the places of the neighbours. -/
def pictureNeighbors : List (V2 K) :=
  ([⟨142 / 100, 0⟩, ⟨-71 / 100, 123 / 100⟩, ⟨-71 / 100, -123 / 100⟩] : List (V2 K)).map
    (fun p => ⟨p.x * (160 / 142), p.y * (160 / 142)⟩)

/-- learn_rates.py:1020-1024: colour maps. -/
def pictureCmaps : List String := ["Blues", "Reds", "Greens"]

/-- learn_rates.py:1025: colours. -/
def pictureColours : List String := ["blue", "red", "green"]

/-- learn_rates.py:1028-1041: the body of the loop.  `rates` are the entries of the reshaped array in
order, three for each point. -/
def neighborPicture (points : List (V2 K)) (rates : List K) (i : ℕ) : Except Err (NeighborPicture K) :=
  let f := (List.range points.length).map (fun k => rates.getD (3 * k + i) 0)
  match argmax? f with
  | none => .error .valueError
  | some a =>
    match maxOf f with
    | .error e => .error e
    | .ok top => .ok {
        contour := points.zip f
        cmap := pictureCmaps.getD i ""
        marked := points.getD a 0
        neighbor := pictureNeighbors.getD i 0
        colour := pictureColours.getD i ""
        maxRate := top }

/-- learn_rates.py:975-1047 `visualize_rates`, for finite rates and fewer points than a float can count.
`predict` takes all contexts at once.  Fixed contexts are repeated `num_points` times, which must be the number
of points of the grid; `reshape` needs three rates for each point but does not look at rows; `contourf`
refuses grids with fewer than two points a side (`TypeError`). -/
def visualizeRates (predict : List (List K) → Except Err (List (List K))) (range : K) (numPoints : ℕ)
    (fixed : Option (List K)) : Except Err (List (NeighborPicture K)) :=
  let m := Nat.sqrt numPoints
  let points := pictureGrid range m
  let coords := points.map (fun p => [p.x, p.y])
  let context : Except Err (List (List K)) :=
    match fixed with
    | none => .ok coords
    | some c => if numPoints = coords.length then .ok (coords.map (fun p => c ++ p)) else .error .valueError
  match context with
  | .error e => .error e
  | .ok context =>
    match predict context with
    | .error e => .error e
    | .ok rates =>
      if rates.flatten.length ≠ 3 * points.length then .error .valueError
      else if m < 2 then .error .typeError
      else (List.range 3).mapM (neighborPicture points rates.flatten)

end PD
