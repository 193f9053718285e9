/- Model of the data sets of the members of an ensemble (rate_learning/learn_rates.py:530-600). -/
import Verif.Model.Splits
import Verif.Model.Augment

namespace PD

/-- `{k: a[indices] for k, a in data.items()}` for the arrays of a rate-learning data set; `None` cannot be
indexed.  (Here the context is the last of the arrays, as in `stack_data`.) -/
def RateData.take (d : RateData) (idx : List ℕ) : Except Err RateData := do
  let states ← takeRows d.states idx
  let position ← takeRows d.position idx
  let dt ← takeRows d.dt idx
  let rates ← takeRows d.rates idx
  match d.context with
  | none => .error .typeError
  | some cs =>
    let context ← takeRows cs idx
    return { states := states, dt := dt, rates := rates, position := position, context := some context }

/-- data_utils.py:306-325 `bootstrap_dataset` (see `bootstrapDataset` for the oracles). -/
def bootstrapRateData (draw : ℕ → List ℕ) (listOfSet : List ℕ → List ℕ) (d : RateData) :
    Except Err (RateData × RateData) := do
  let n := d.states.length
  let train ← d.take (draw n)
  let testIndices := listOfSet ((List.range n).filter (fun i => decide (i ∉ draw n)))
  if testIndices = [] then .error .indexError
  else
    let test ← d.take testIndices
    return (train, test)

/-- data_utils.py:328-352 `split_dataset` (see `splitDataset`). -/
noncomputable def splitRateData (fraction : ℝ) (draw : ℕ → List ℕ) (d : RateData) :
    Except Err (RateData × RateData) := do
  let n := d.states.length
  let cut := sliceBound n (pyInt (n * fraction))
  let train ← d.take ((draw n).drop cut)
  let test ← d.take ((draw n).take cut)
  return (train, test)

/-- learn_rates.py:554-573: the training and test data of each member; one source of draws for each. -/
noncomputable def memberSplits (draws : List (ℕ → List ℕ)) (listOfSet : List ℕ → List ℕ) (bootstrap : Bool)
    (fraction : ℝ) (d : RateData) : Except Err (List (RateData × RateData)) :=
  if bootstrap then draws.mapM (fun draw => bootstrapRateData draw listOfSet d)
  else if fraction < 1 ∧ 0 < fraction then draws.mapM (fun draw => splitRateData fraction draw d)
  else if fraction = 0 then .ok (draws.map (fun _ => (d, d)))
  else .error .assertionError

/-- learn_rates.py:575-579, for training or test data. -/
noncomputable def augmentMembers (augment : Bool) (ds : List RateData) : Except Err (List RateData) :=
  if augment then ds.mapM (augmentData true 3) else .ok ds

/-- `a['context'].shape[0]`. -/
def contextRows (d : RateData) : Except Err ℕ :=
  match d.context with
  | none => .error .attributeError
  | some cs => .ok cs.length

/-- learn_rates.py:582-584: the first rows of all arrays.  Slicing `None` is not reached
(`contextRows` raises before). -/
def RateData.truncate (k : ℕ) (d : RateData) : RateData where
  states := d.states.take k
  dt := d.dt.take k
  rates := d.rates.take k
  position := d.position.take k
  context := d.context.map (fun cs => cs.take k)

/-- What a member gets: the arrays after positions were joined to the context. -/
structure MemberData where
  states : List ℤ
  dt : List ℝ
  rates : List (List ℝ)
  context : List (List ℝ)

/-- `jnp.stack` wants arrays of the same shape. -/
def sameLength {α : Type} (arrays : List (List α)) : Bool :=
  match arrays with
  | [] => false
  | a :: rest => rest.all (fun b => b.length == a.length)

/-- learn_rates.py:586-602: stack the arrays of the members and join positions to contexts.  Widths of rates
and contexts are taken to agree. -/
def stackMembers (ds : List RateData) : Except Err (List MemberData) :=
  if sameLength (ds.map RateData.states) && sameLength (ds.map RateData.dt) &&
      sameLength (ds.map RateData.rates) && sameLength (ds.map RateData.position) &&
      sameLength (ds.map (fun d => d.context.getD [])) then
    .ok (ds.map (fun d => {
      states := d.states
      dt := d.dt
      rates := d.rates
      context := List.zipWith (fun c (p : V2 ℝ) => c ++ [p.x, p.y]) (d.context.getD []) d.position }))
  else .error .valueError

/-- learn_rates.py:530-604 `create_dataset_splits`: training and test data of the members. -/
noncomputable def createDatasetSplits (draws : List (ℕ → List ℕ)) (listOfSet : List ℕ → List ℕ)
    (bootstrap augment : Bool) (fraction : ℝ) (d : RateData) :
    Except Err (List MemberData × List MemberData) := do
  let pairs ← memberSplits draws listOfSet bootstrap fraction d
  let trains ← augmentMembers augment (pairs.map Prod.fst)
  let tests ← augmentMembers augment (pairs.map Prod.snd)
  let sizes ← tests.mapM contextRows
  match sizes.min? with
  | none => .error .valueError
  | some k =>
    let stackedTrains ← stackMembers trains
    let stackedTests ← stackMembers (tests.map (RateData.truncate k))
    return (stackedTrains, stackedTests)

end PD
