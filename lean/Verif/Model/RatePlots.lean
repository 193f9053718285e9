/- Model of the plots of rate functions (plotting_utils.py).  Drawing itself is matplotlib's and
seaborn's; what is modelled are the data they are given. -/
import Verif.Model.Rates
import Verif.Model.GreedyAgent
import Mathlib.Analysis.SpecialFunctions.Trigonometric.Basic

namespace PD

/-- plotting_utils.py:263-273 `_center_grid_on_single_silicon`: only `SiliconNotFoundError` is
turned into a `ValueError`. -/
def centerOnSilicon {K : Type} [Field K] [LinearOrder K] (grid : Grid K) : Except Err (Grid K) :=
  match getSingleSiliconPosition grid with
  | .ok si => .ok ⟨grid.positions.map (fun p => p - si), grid.numbers⟩
  | .error .siliconNotFound => .error .valueError
  | .error e => .error e

/-- plotting_utils.py:303-308: a row of the data frame of `plot_rate_function3`. -/
structure RasterRow (K : Type) where
  x : K
  y : K
  rate : K
  next : V2 K
  deriving DecidableEq, Repr

section raster
variable {K : Type} [Field K] [LinearOrder K]

/-- plotting_utils.py:312-321: the rows of one raster point, one per successor state. -/
def rasterPoint (rate : RateFunction K) (grid : Grid K) (x y : K) :
    Except Err (List (RasterRow K)) := do
  let ss ← rate grid ⟨x, y⟩
  ss.mapM (fun s => do
    let si ← getSingleSiliconPosition s.grid
    pure ⟨x, y, s.rate, si⟩)

/-- plotting_utils.py:310-321: the loops over the raster. -/
def rasterRows (rate : RateFunction K) (grid : Grid K) (points : List K) :
    Except Err (List (RasterRow K)) := do
  let rows ← points.mapM (fun x => do
    let r ← points.mapM (fun y => rasterPoint rate grid x y)
    pure r.flatten)
  pure rows.flatten

/-- plotting_utils.py:326 the colour maps of the three neighbours. -/
def colourMaps : List String := ["Blues", "Oranges", "Greens"]

/-- What `plot_rate_function3` draws: contours (a data set and a colour map for each), faint dots for
the atoms, and coloured dots for the neighbours. -/
structure RatePlot (K : Type) where
  contours : List (List (RasterRow K) × String)
  atoms : List (V2 K)
  neighbours : List (V2 K × String)

/-- plotting_utils.py:276-361 `plot_rate_function3`.  `order` is the order in which Python goes
through `set(df['next_si_pos'])`; it is the same both times the set is gone through.  `ax.scatter`
raises `ValueError` unless there are as many colours as points (plotting_utils.py:351-355). -/
def plotRateFunction3 (order : List (V2 K) → List (V2 K)) (rate : RateFunction K) (grid : Grid K)
    (extent : K × K) (numPoints : ℕ) : Except Err (RatePlot K) := do
  let grid ← centerOnSilicon grid
  let rows ← rasterRows rate grid (linspace extent.1 extent.2 numPoints)
  let nexts := order (rows.map (·.next))
  let contours := (nexts.zip colourMaps).map (fun nc =>
    (rows.filter (fun r => decide (r.next = nc.1)), nc.2))
  if nexts.length = colourMaps.length then
    pure ⟨contours, grid.positions, nexts.zip colourMaps⟩
  else .error .valueError

/-- plotting_utils.py:399-409: what a point of the scan adds. -/
def vectorPoint (rate : RateFunction K) (grid : Grid K) (vec : V2 K) (x : K) :
    Except Err (List (K × K)) := do
  let ss ← rate grid ⟨vec.x * x, vec.y * x⟩
  let rows ← ss.mapM (fun s => do
    let si ← getSingleSiliconPosition s.grid
    pure (if V2.distSq si vec < (1 / 100) ^ 2 then [(x, s.rate)] else []))
  pure rows.flatten

/-- `max(data['y'])`: `ValueError` on an empty list. -/
def maxOf : List K → Except Err K
  | [] => .error .valueError
  | a :: as => .ok (as.foldl max a)

/-- plotting_utils.py:364-421 `plot_rate_along_neighbor_vector3`: the curve (position along the
vector, rate) and the height of the two dashed lines.  Distances are compared squared. -/
def plotRateAlongVector3 (knn : Knn K) (rate : RateFunction K) (grid : Grid K) (extent : K × K)
    (numPoints : ℕ) : Except Err (List (K × K) × K) := do
  let grid ← centerOnSilicon grid
  let idx ← nearestNeighbors3 knn grid.positions 0
  let nbrs ← takeRows grid.positions idx
  match nbrs with
  | [] => .error .indexError
  | vec :: _ =>
    let rows ← (linspace extent.1 extent.2 numPoints).mapM (vectorPoint rate grid vec)
    let top ← maxOf (rows.flatten.map (·.2))
    pure (rows.flatten, top * (11 / 10))

end raster

/-- plotting_utils.py:463: a row of the data frame of `plot_rate_along_arc3`; the label is `none`
for `'Total rate'`. -/
structure ArcRow where
  angle : ℝ
  rate : ℝ
  label : Option ℕ

/-- plotting_utils.py:464-467 `next_state_labels`: a dictionary, later entries replacing earlier
ones; looking up a missing key is a `KeyError` (plotting_utils.py:480). -/
noncomputable def arcLabel (nbrs : List (V2 ℝ)) (p : V2 ℝ) : Except Err ℕ :=
  match ((nbrs.zipIdx.map (fun pi => (pi.1, pi.2 + 1))).reverse.find? (fun pi => decide (pi.1 = p))) with
  | some pi => .ok pi.2
  | none => .error .notFound

/-- plotting_utils.py:469-484: the rows of one angle. -/
noncomputable def arcPoint (rate : RateFunction ℝ) (grid : Grid ℝ) (nbrs : List (V2 ℝ)) (radius : ℝ)
    (angle : ℝ) : Except Err (List ArcRow) := do
  let ss ← rate grid ⟨Real.sin angle * radius, Real.cos angle * radius⟩
  let rows ← ss.mapM (fun s => do
    let si ← getSingleSiliconPosition s.grid
    let label ← arcLabel nbrs si
    pure (⟨angle, s.rate, some label⟩ : ArcRow))
  pure (⟨angle, totalRate ss, none⟩ :: rows)

/-- plotting_utils.py:455-461: the mean distance of the neighbours from the silicon (numpy's mean
of no values is NaN; there always are three here). -/
noncomputable def meanDistance (nbrs : List (V2 ℝ)) : ℝ :=
  (nbrs.map (fun p => Real.sqrt (V2.normSq p))).sum / nbrs.length

/-- plotting_utils.py:424-488 `plot_rate_along_arc3`: the rows given to `sns.lineplot`. -/
noncomputable def plotRateAlongArc3 (knn : Knn ℝ) (rate : RateFunction ℝ) (grid : Grid ℝ)
    (normalizedRadius : ℝ) (numPoints : ℕ) : Except Err (List ArcRow) := do
  let grid ← centerOnSilicon grid
  let idx ← nearestNeighbors3 knn grid.positions 0
  let nbrs ← takeRows grid.positions idx
  let radius := normalizedRadius * meanDistance nbrs
  let rows ← (linspace 0 (2 * Real.pi) numPoints).mapM (arcPoint rate grid nbrs radius)
  pure rows.flatten

end PD
