/- Model of the arrays made from data points (pipeline/train_rate_learner.py:518-565, 673-686). -/
import Verif.Model.DataPoints
import Verif.Model.Augment

namespace PD

/-- train_rate_learner.py:102-107 `Dataset`.  Context entries can be `None`, as currents and voltages can. -/
structure StackedData where
  nextState : List ℕ
  position : List (V2 ℝ)
  dt : List ℝ
  rates : List (List ℝ)
  context : Option (List (List (Option ℝ)))

/-- train_rate_learner.py:543-552: the columns of the context. -/
def contextColumns (useCurrent useVoltage dwell : Bool) (data : List DataPoint) : List (List (Option ℝ)) :=
  (if useCurrent then [data.map DataPoint.current] else []) ++
  (if useVoltage then [data.map DataPoint.voltage] else []) ++
  (if dwell then [data.map (fun d => some d.secondsBetween)] else [])

/-- `np.stack(columns, axis=-1)` of columns with `n` entries: row `i` has entry `i` of every column. -/
def stackColumns {α : Type} (n : ℕ) (columns : List (List α)) : List (List α) :=
  (List.range n).map (fun i => columns.filterMap (fun c => c[i]?))

/-- train_rate_learner.py:518-565 `stack_data`; `np.stack` of nothing raises. -/
def stackData (useCurrent useVoltage dwell : Bool) (neighbors : ℕ) (data : List DataPoint) :
    Except Err StackedData :=
  if data = [] then .error .valueError
  else
    let columns := contextColumns useCurrent useVoltage dwell data
    .ok {
      nextState := data.map DataPoint.nextState
      position := data.map DataPoint.beamPos
      dt := data.map DataPoint.secondsBetween
      rates := List.replicate data.length (List.replicate neighbors 0)
      context := if columns = [] then none else some (stackColumns data.length columns) }

/-- train_rate_learner.py:682-686: other learners than the rate network get times of one. -/
def StackedData.forLearner (rateNetwork : Bool) (d : StackedData) : StackedData :=
  if rateNetwork then d else { d with dt := d.dt.map (fun _ => 1) }

/-- Numbers of a row; JAX has no arrays with `None` in them. -/
def plainRow : List (Option ℝ) → Except Err (List ℝ)
  | [] => .ok []
  | none :: _ => .error .typeError
  | some x :: rest =>
    match plainRow rest with
    | .error e => .error e
    | .ok xs => .ok (x :: xs)

/-- The arrays as JAX sees them. -/
def StackedData.toRateData (d : StackedData) : Except Err RateData :=
  let make := fun context => ({
    states := d.nextState.map (fun s : ℕ => (s : ℤ))
    dt := d.dt
    rates := d.rates
    position := d.position
    context := context } : RateData)
  match d.context with
  | none => .ok (make none)
  | some rows =>
    match rows.mapM plainRow with
    | .error e => .error e
    | .ok cs => .ok (make (some cs))

/-- train_rate_learner.py:673-686: from data points to the learner's arrays. -/
def prepareData (useCurrent useVoltage rateNetwork : Bool) (data : List DataPoint) : Except Err StackedData :=
  match stackData useCurrent useVoltage (!rateNetwork) 3 data with
  | .error e => .error e
  | .ok d => .ok (d.forLearner rateNetwork)

end PD
