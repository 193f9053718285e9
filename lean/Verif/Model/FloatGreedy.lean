/- The features in Ångströms and the greedy agent, computed with floating point numbers. -/
import Verif.Model.Features
import Verif.Model.GreedyAgent
import Verif.Model.FloatFrames
import Verif.Model.FloatData

namespace PD
variable {Img G : Type}

/-- feature_constructors.py:63-76 `_get_silicon_goal_delta`.  `reshape(2)` raises `ValueError` unless there is exactly one
silicon. -/
noncomputable def floatGoalDelta (grid : Grid ℝ) (fov : Fov ℝ) (goal : GoalState ℝ) : Except Err (V2 ℝ) :=
  match getSiliconPositions grid with
  | [p] => .ok (floatSub goal.goal (fov.floatToMaterial p))
  | _ => .error .valueError

/-- feature_constructors.py:166-217, `SingleSiliconMaterialFrameFeatureConstructor.get_features`, with the cast to float32 at
the end. -/
noncomputable def floatMaterialFeatures (knn : FloatKnn) (o : Observation ℝ Img) : AnyGoal ℝ → Except Err (List ℝ)
  | .other => .error .valueError
  | .singleSilicon goal =>
    let grid := o.fov.floatGridToMaterial o.grid
    match getSingleSiliconPosition grid with
    | .error e => .error e
    | .ok si =>
      match knn.kneighbors grid.positions si 4 with
      | .error e => .error e
      | .ok idx =>
        match takeRows grid.positions (idx.drop 1) with
        | .error e => .error e
        | .ok nbrs =>
          let deltas := nbrs.map (fun p => floatSub p si)
          match floatGoalDelta o.grid o.fov goal with
          | .error e => .error e
          | .ok delta => .ok (([si.x, si.y] ++ flatten2 deltas ++ [delta.x, delta.y]).map f32)

/-- `np.arctan2`, `np.cos` and `np.sin` of float32 numbers: any functions with small errors.  As for float64 numbers, the
angle need only be right up to full turns. -/
structure SingleLib where
  arctan2 : ℝ → ℝ → ℝ
  cos : ℝ → ℝ
  sin : ℝ → ℝ
  size : ∀ y x, |arctan2 y x| ≤ 4
  angle_err : ∀ y x, ∃ n : ℤ, |arctan2 y x - (getAngle ⟨x, y⟩ + n * (2 * Real.pi))| ≤ 1 / 10 ^ 6
  cos_err : ∀ t, |t| ≤ 4 → |cos t - Real.cos t| ≤ 1 / 10 ^ 6
  sin_err : ∀ t, |t| ≤ 4 → |sin t - Real.sin t| ≤ 1 / 10 ^ 6

/-- The difference of two float32 arrays. -/
noncomputable def singleSub (a b : V2 ℝ) : V2 ℝ := ⟨f32 (a.x - b.x), f32 (a.y - b.y)⟩

/-- `np.linalg.norm` with an axis, of two float32 numbers: squares, their sum and its root, each rounded. -/
noncomputable def singleNorm (v : V2 ℝ) : ℝ := f32 (Real.sqrt (f32 (f32 (v.x * v.x) + f32 (v.y * v.y))))

/-- agent_lib.py:163-183 `GreedyAgent.step` on a flat float32 observation, for `argmax` an array of type float64 (as the
default is): the scores and the angle are of type float32, and so is the matrix of the rotation (geometry.py:51-66), while
the beam position and the product are of type float64. -/
noncomputable def Greedy.floatStep (T : SingleLib) (k : DotKind) (normal : ℝ → G → V2 ℝ × G) (a : Greedy)
    (obs : List ℝ) : EStateM Err G (V2 ℝ) := fun g =>
  if obs.length ≠ 10 then .error .assertionError g
  else
    let neighborDeltas := reshape2 ((obs.drop 2).take 6)
    match reshape2 (obs.drop 8) with
    | [goalDelta] =>
      let scores := neighborDeltas.map (fun d => singleNorm (singleSub d goalDelta))
      match argmin? scores with
      | none => .error .valueError g
      | some best =>
        match (neighborDeltas.map (fun d => T.arctan2 d.y d.x))[best]? with
        | none => .error .indexError g
        | some angle =>
          let beam : V2 ℝ := ⟨f64 (a.argmax.x + a.fixedOffset.x), f64 (a.argmax.y + a.fixedOffset.y)⟩
          let (noise, g') := normal a.sigma g
          let beam : V2 ℝ := ⟨f64 (beam.x + noise.x), f64 (beam.y + noise.y)⟩
          .ok ⟨floatPair k beam.x (T.cos angle) beam.y (-T.sin angle),
            floatPair k beam.x (T.sin angle) beam.y (T.cos angle)⟩ g'
    | _ => .error .valueError g  -- impossible: ten entries

end PD
