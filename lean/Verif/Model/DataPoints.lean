/- Model of the conversion of transitions to rate-learning data (rate_learning/data_utils.py,
pipeline/train_rate_learner.py), over the real numbers. -/
import Verif.Model.Transitions
import Verif.Model.Rates

namespace PD
variable {Img : Type}

/-- `np.argsort`: indices that sort the list.  numpy sorts short arrays by insertion, so equal
entries keep their order. -/
def argsort {K : Type} [LinearOrder K] [Zero K] (xs : List K) : List ℕ :=
  (List.range xs.length).insertionSort (fun i j => xs.getD i 0 ≤ xs.getD j 0)

/-- numpy's `x % m` for floats and positive `m`: in `[0, m)`. -/
noncomputable def pyMod (x m : ℝ) : ℝ := x - m * ⌊x / m⌋

/-- data_utils.py:389-432 `standardize_beam_and_neighbors`: beam and neighbours turned so that the
neighbour nearest the beam points to the right, and the order of the neighbours. -/
noncomputable def standardize (beam : V2 ℝ) (nbrs : List (V2 ℝ)) :
    Except Err (V2 ℝ × List (V2 ℝ) × List ℕ) :=
  match argmin? (nbrs.map (fun n => norm2 (n - beam))) with
  | none => .error .valueError
  | some nearest =>
    let angles := getAngles nbrs
    match angles[nearest]? with
    | none => .error .indexError
    | some a =>
      let rotation := -a
      let positive := angles.map (fun t => pyMod (t + rotation) (2 * Real.pi))
      .ok (rotate beam rotation, rotateCoordinates nbrs rotation, argsort positive)

/-- train_rate_learner.py:92-97 `DataPoint`. -/
structure DataPoint where
  nextState : ℕ
  beamPos : V2 ℝ
  secondsBetween : ℝ
  current : Option ℝ
  voltage : Option ℝ

/-- train_rate_learner.py:315-322: the reasons to leave out a transition. -/
inductive Exclusion where
  | wrongSilicons | noControls | noSiliconNeighbor | wrongNeighbors | wrongNextNeighbors
  | tooDistant | fourfold | notThreefold
  deriving DecidableEq

/-- train_rate_learner.py:440-448: the mean over the neighbours before of the distance to the
nearest neighbour after.  `np.min` of an empty row raises. -/
noncomputable def meanNearest (before after : List (V2 ℝ)) : Except Err ℝ :=
  match before.mapM (fun p => (after.map (fun q => norm2 (p - q))).min?) with
  | none => .error .valueError
  | some ds => .ok (ds.sum / ds.length)

/-- train_rate_learner.py:454-482: the data point, given the silicon before and after, the silicon
with its three neighbours before, and the control. -/
noncomputable def makeDataPoint (c : BeamControl ℝ) (beam si siAfter : V2 ℝ) (nbrs : List (V2 ℝ)) :
    Except Err DataPoint :=
  let controlDelta := beam - si
  let deltas := nbrs.map (fun p => p - si)
  match standardize controlDelta (deltas.drop 1) with
  | .error e => .error e
  | .ok (beam', _, order) =>
    match argmin? (nbrs.map (fun p => norm2 (p - siAfter))) with
    | none => .error .valueError
    | some 0 => .ok ⟨0, beam', totalSeconds c.dwellTime, c.currentNa, c.voltageKv⟩
    | some (k + 1) =>
      match (argsort order)[k]? with
      | none => .error .indexError
      | some rank => .ok ⟨rank + 1, beam', totalSeconds c.dwellTime, c.currentNa, c.voltageKv⟩

/-- train_rate_learner.py:403-448: the tests on the grid after. -/
noncomputable def checkAfter (knn : Knn ℝ) (cutoff : ℝ) (after : Grid ℝ) (si : V2 ℝ)
    (nbrs : List (V2 ℝ)) : Except Err (Exclusion ⊕ V2 ℝ) :=
  match knn.kneighbors after.positions si 4 with
  | .error e => .error e
  | .ok idx =>
    match takeRows after.positions idx with
    | .error e => .error e
    | .ok nbrsAfter =>
      match takeRows after.numbers idx with
      | .error e => .error e
      | .ok numbersAfter =>
        match getSiliconPositions after with
        | [siAfter] =>
          if !(numbersAfter.any (fun n => decide (n = SILICON))) then .ok (.inl .noSiliconNeighbor)
          else if nbrsAfter.length ≠ 4 then .ok (.inl .wrongNextNeighbors)
          else if idx.length ≠ 4 then .ok (.inl .wrongNextNeighbors)
          else if numbersAfter.length ≠ 4 then .ok (.inl .wrongNextNeighbors)
          else
            match meanNearest nbrs nbrsAfter with
            | .error e => .error e
            | .ok m => if m > cutoff then .ok (.inl .tooDistant) else .ok (.inr siAfter)
        | _ => .ok (.inl .wrongSilicons)

/-- train_rate_learner.py:361-400: the tests on the grid before; the silicon and its three
neighbours.  The entries 1 and 4 of the distances exist because there are ten. -/
noncomputable def checkBefore (knn : Knn ℝ) (before : Grid ℝ) (si : V2 ℝ) :
    Except Err (Exclusion ⊕ List (V2 ℝ)) :=
  match knn.kneighbors before.positions si 10 with
  | .error e => .error e
  | .ok idx =>
    match takeRows before.positions idx with
    | .error e => .error e
    | .ok nbrs =>
      if nbrs.length ≠ 10 then .ok (.inl .wrongNeighbors)
      else if idx.length ≠ 10 then .ok (.inl .wrongNeighbors)
      else
        let ds := nbrs.map (fun p => norm2 (si - p))
        let isFourfold := decide (|ds.getD 1 0 - ds.getD 4 0| < 1 / 2)
        let isThreefold := ((ds.drop 1).take 3).all (fun d => decide (d < 2)) &&
          (ds.drop 4).all (fun d => decide (d > 2))
        if isFourfold then .ok (.inl .fourfold)
        else if !isThreefold && !isFourfold then .ok (.inl .notThreefold)
        else .ok (.inr (nbrs.take 4))

/-- train_rate_learner.py:331-482, the body of the loop: an exclusion or a data point. -/
noncomputable def datapointOf (knn : Knn ℝ) (cutoff : ℝ) (t : Transition ℝ Img) :
    Except Err (Exclusion ⊕ DataPoint) :=
  match t.controls with
  | [c] =>
    let before := t.fovBefore.gridToMaterial t.gridBefore
    let after := t.fovAfter.gridToMaterial t.gridAfter
    let beam := t.fovBefore.toMaterial c.position
    match getSiliconPositions before with
    | [si] =>
      match checkBefore knn before si with
      | .error e => .error e
      | .ok (.inl x) => .ok (.inl x)
      | .ok (.inr nbrs) =>
        match checkAfter knn cutoff after si nbrs with
        | .error e => .error e
        | .ok (.inl x) => .ok (.inl x)
        | .ok (.inr siAfter) =>
          match makeDataPoint c beam si siAfter nbrs with
          | .error e => .error e
          | .ok d => .ok (.inr d)
    | _ => .ok (.inl .wrongSilicons)
  | _ => .ok (.inl .noControls)

/-- train_rate_learner.py:315-322: the counters. -/
structure Counters where
  wrongSilicons : ℕ := 0
  noControls : ℕ := 0
  noSiliconNeighbor : ℕ := 0
  wrongNeighbors : ℕ := 0
  wrongNextNeighbors : ℕ := 0
  tooDistant : ℕ := 0
  fourfold : ℕ := 0
  notThreefold : ℕ := 0

/-- The `… += 1` of each branch. -/
def Counters.bump (c : Counters) : Exclusion → Counters
  | .wrongSilicons => { c with wrongSilicons := c.wrongSilicons + 1 }
  | .noControls => { c with noControls := c.noControls + 1 }
  | .noSiliconNeighbor => { c with noSiliconNeighbor := c.noSiliconNeighbor + 1 }
  | .wrongNeighbors => { c with wrongNeighbors := c.wrongNeighbors + 1 }
  | .wrongNextNeighbors => { c with wrongNextNeighbors := c.wrongNextNeighbors + 1 }
  | .tooDistant => { c with tooDistant := c.tooDistant + 1 }
  | .fourfold => { c with fourfold := c.fourfold + 1 }
  | .notThreefold => { c with notThreefold := c.notThreefold + 1 }

/-- train_rate_learner.py:294-515 `transitions_to_datapoints`, without the plots: the data and the
counters it prints. -/
noncomputable def transitionsToDatapoints (knn : Knn ℝ) (cutoff : ℝ) :
    List (Transition ℝ Img) → List DataPoint → Counters → Except Err (List DataPoint × Counters)
  | [], data, counters => .ok (data, counters)
  | t :: ts, data, counters =>
    match datapointOf knn cutoff t with
    | .error e => .error e
    | .ok (.inl x) => transitionsToDatapoints knn cutoff ts data (counters.bump x)
    | .ok (.inr d) => transitionsToDatapoints knn cutoff ts (data ++ [d]) counters

end PD
