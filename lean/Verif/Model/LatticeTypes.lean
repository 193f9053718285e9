/- Model of the sub-lattice classifier of the filtering aligner (alignment.py:829-891) and of the aligner with
all the routines it calls. -/
import Verif.Model.Aligners
import Verif.Model.AlignLatest
import Verif.Model.Classes

namespace PD

/-- `sklearn.cluster.KMeans(2)`: what fitting gives for rows of features (with one outcome of its random
start), and the numbers of the clusters of rows. -/
structure KMeans (C : Type) where
  fit : List (List ℝ) → Except Err C
  predict : C → List (List ℝ) → Except Err (List ℤ)

/-- `grid[:, :2] - grid[:, :2].mean(0)` (alignment.py:838, 871, 911). -/
noncomputable def centred (ps : List (V2 ℝ)) : List (V2 ℝ) :=
  ps.map (fun p => p - ⟨(ps.map (·.x)).sum / ps.length, (ps.map (·.y)).sum / ps.length⟩)

/-- alignment.py:840-842: distances from atom `i` to all atoms. -/
noncomputable def distanceRow (ps : List (V2 ℝ)) (i : ℕ) : List ℝ :=
  (List.range ps.length).map (fun j => norm2 (ps.getD j 0 - ps.getD i 0))

/-- alignment.py:847-852, 881-886, one row: angles from atom `i` to other atoms. -/
noncomputable def neighborAngles (ps : List (V2 ℝ)) (i : ℕ) (nbrs : List ℕ) : List ℝ :=
  getAngles (nbrs.map (fun j => ps.getD j 0 - ps.getD i 0))

/-- alignment.py:838-853: the features for fitting, angles in increasing order. -/
noncomputable def fitFeatures (ps : List (V2 ℝ)) : List (List ℝ) :=
  let g := centred ps
  (List.range g.length).map (fun i =>
    (neighborAngles g i (((argsort (distanceRow g i)).drop 1).take 3)).mergeSort (fun a b => decide (a ≤ b)))

/-- alignment.py:829-857 `get_lattice_clusterer`; `np.stack` of no rows raises. -/
noncomputable def latticeClusterer {C : Type} (km : KMeans C) (ps : List (V2 ℝ)) : Except Err C :=
  if ps = [] then .error .valueError else km.fit (fitFeatures ps)

/-- alignment.py:871-886: the features for classifying, angles in the order of the neighbours' distances. -/
noncomputable def classifyFeatures (ps : List (V2 ℝ)) : List (List ℝ) :=
  let g := centred ps
  (List.range g.length).map (fun i => neighborAngles g i ((argsort (bondRow g i)).take 3))

/-- alignment.py:871-891 `classify_lattice_types`, after its assertion. -/
noncomputable def classifyTypes {C : Type} (km : KMeans C) (ps : List (V2 ℝ)) (c : C) : Except Err (List ℤ) :=
  match km.predict c (classifyFeatures ps) with
  | .error e => .error e
  | .ok classes => propagateGrapheneClasses classes (centred ps)

/-- The squared distance of two rows of features. -/
def rowDistSq (xs ys : List ℝ) : ℝ := ((xs.zip ys).map (fun p => (p.1 - p.2) ^ 2)).sum

/-- `sklearn.cluster.KMeans.predict` with two centres, one row: the number of the nearest centre, the first one
of two at the same distance. -/
noncomputable def nearestOfTwo (c : List ℝ × List ℝ) (row : List ℝ) : ℤ :=
  if rowDistSq row c.1 ≤ rowDistSq row c.2 then 0 else 1

/-- `sklearn.cluster.KMeans(2)` with any way of finding the two centres.  (Rows that are not as long as the
centres, which raise, do not occur: grids of less than three atoms are refused before.) -/
noncomputable def twoMeans (fit : List (List ℝ) → Except Err (List ℝ × List ℝ)) : KMeans (List ℝ × List ℝ) :=
  ⟨fit, fun c rows => .ok (rows.map (nearestOfTwo c))⟩

/-- The settings of the filtering aligner that go to `align_latest` (alignment.py:612-630). -/
structure AlignCfg where
  iterations : ℕ := 20
  noiseScale : ℝ := 0
  maxShift : ℝ := 2
  trim : ℝ := 0

/-- alignment.py:680-694: the routines the filtering aligner calls, with random draws `draw`. -/
noncomputable def latticeOps {C : Type} (km : KMeans C) (ac : AlignCfg) (draw : ℕ → V2 ℝ) : FilterOps ℝ C where
  fit := latticeClusterer km
  predict := classifyTypes km
  align := fun new ref newClasses refClasses =>
    match alignLatest ⟨new, ref, newClasses, refClasses, ac.iterations, ac.noiseScale, ac.maxShift, some 2, ac.trim⟩
        draw (some 0) with
    | .error e => .error e
    | .ok st => .ok st.drift

/-- What a user of the filtering aligner can do. -/
inductive FilterUse where
  | reset
  | shift (v : V2 ℝ)
  | observe (draw : ℕ → V2 ℝ) (g : Grid ℝ)

/-- A history of uses; the results are those of the observations, exceptions included. -/
noncomputable def FilterState.run {C : Type} (cfg : FilterCfg ℝ) (km : KMeans C) (ac : AlignCfg) (cf : CliqueFinder) :
    List FilterUse → FilterState ℝ C → List (Except Err (Grid ℝ × V2 ℝ)) × FilterState ℝ C
  | [], s => ([], s)
  | .reset :: rest, _ => FilterState.run cfg km ac cf rest FilterState.fresh
  | .shift v :: rest, s => FilterState.run cfg km ac cf rest (s.applyShift v)
  | .observe draw g :: rest, s =>
    match FilterState.call cfg (latticeOps km ac draw) cf g s with
    | .ok r s' => let (rs, t) := FilterState.run cfg km ac cf rest s'; (.ok r :: rs, t)
    | .error e s' => let (rs, t) := FilterState.run cfg km ac cf rest s'; (.error e :: rs, t)

end PD
