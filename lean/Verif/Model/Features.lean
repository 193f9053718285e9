/- Model of the feature constructors (feature_constructors.py). -/
import Verif.Model.Goal
import Mathlib.Analysis.SpecialFunctions.Sqrt

namespace PD
variable {K Img : Type}

/-- A goal object; `isinstance(goal, goals.SingleSiliconGoalReaching)` tells the two cases apart. -/
inductive AnyGoal (K : Type) where
  | singleSilicon (s : GoalState K)
  | other

/-- feature_constructors.py:63-76 `_get_silicon_goal_delta`.  `reshape(2)` raises `ValueError`
unless there is exactly one silicon. -/
def siliconGoalDelta [Field K] (grid : Grid K) (fov : Fov K) (goal : GoalState K) :
    Except Err (V2 K) :=
  match getSiliconPositions grid with
  | [p] => .ok (goal.goal - fov.toMaterial p)
  | _ => .error .valueError

/-- `neighbors.NearestNeighbors(n_neighbors=4).fit(ps).kneighbors(q)`, then `[0, 1:]` and
`atom_positions[…]` (feature_constructors.py:115-128 and 191-203). -/
def threeNeighbours [Field K] [LinearOrder K] (knn : Knn K) (ps : List (V2 K)) (q : V2 K) :
    Except Err (List (V2 K)) :=
  match knn.kneighbors ps q 4 with
  | .error e => .error e
  | .ok idx => .ok ((idx.drop 1).filterMap (fun i => ps[i]?))

/-- `reshape(-1)` of an `(n, 2)` array. -/
def flatten2 (ps : List (V2 K)) : List K := ps.flatMap (fun p => [p.x, p.y])

/-- feature_constructors.py:88-143, `SingleSiliconPristineGrapheneFeatureConstuctor.get_features`.
Over the reals because of the Euclidean norm.  The cast to float32 is not modelled. -/
noncomputable def pristineFeatures (knn : Knn ℝ) (o : Observation ℝ Img) :
    AnyGoal ℝ → Except Err (List ℝ)
  | .other => .error .valueError
  | .singleSilicon goal =>
    match getSingleSiliconPosition o.grid with
    | .error e => .error e
    | .ok si =>
      match threeNeighbours knn o.grid.positions si with
      | .error e => .error e
      | .ok nbrs =>
        let normalized := nbrs.map (fun p =>
          let d := Real.sqrt (V2.distSq si p)
          (⟨(p - si).x / d, (p - si).y / d⟩ : V2 ℝ))
        match siliconGoalDelta o.grid o.fov goal with
        | .error e => .error e
        | .ok delta => .ok ([si.x, si.y] ++ flatten2 normalized ++ [delta.x, delta.y])

/-- feature_constructors.py:166-217, `SingleSiliconMaterialFrameFeatureConstructor.get_features`. -/
def materialFeatures [Field K] [LinearOrder K] (knn : Knn K) (o : Observation K Img) :
    AnyGoal K → Except Err (List K)
  | .other => .error .valueError
  | .singleSilicon goal =>
    let grid := o.fov.gridToMaterial o.grid
    match getSingleSiliconPosition grid with
    | .error e => .error e
    | .ok si =>
      match threeNeighbours knn grid.positions si with
      | .error e => .error e
      | .ok nbrs =>
        let deltas := nbrs.map (fun p => p - si)
        match siliconGoalDelta o.grid o.fov goal with
        | .error e => .error e
        | .ok delta => .ok ([si.x, si.y] ++ flatten2 deltas ++ [delta.x, delta.y])

/-- feature_constructors.py:237-267 `ImageFeatureConstructor.get_features`; `resize` stands for
`cv2.resize(image, (128, 128))`. -/
def imageFeatures [Field K] (resize : Img → Img) (o : Observation K Img) :
    AnyGoal K → Except Err (Img × V2 K)
  | .other => .error .valueError
  | .singleSilicon goal =>
    match o.image with
    | none => .error .runtimeError
    | some img =>
      match siliconGoalDelta o.grid o.fov goal with
      | .error e => .error e
      | .ok delta => .ok (resize img, delta)

end PD
