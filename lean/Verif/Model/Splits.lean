/- Model of the splits of rate-learning data into training and test data
(rate_learning/data_utils.py) and of the batches of an epoch (rate_learning/learn_rates.py). -/
import Verif.Model.Rates

namespace PD
variable {α : Type}

/-- A dictionary of arrays with the same first dimension. -/
abbrev DataDict (α : Type) := List (String × List α)

/-- `list(data.values())[0].shape[0]`; `IndexError` for an empty dictionary. -/
def DataDict.rows (d : DataDict α) : Except Err ℕ :=
  match d with
  | [] => .error .indexError
  | (_, a) :: _ => .ok a.length

/-- `{k: a[indices] for k, a in data.items()}`. -/
def DataDict.take : DataDict α → List ℕ → Except Err (DataDict α)
  | [], _ => .ok []
  | (k, a) :: rest, idx =>
    match takeRows a idx with
    | .error e => .error e
    | .ok a' =>
      match DataDict.take rest idx with
      | .error e => .error e
      | .ok rest' => .ok ((k, a') :: rest')

/-- Python's `int` of a number: towards zero. -/
def pyInt {K : Type} [Field K] [LinearOrder K] [FloorRing K] (x : K) : ℤ := if 0 ≤ x then ⌊x⌋ else ⌈x⌉

/-- The position at which `xs[k:]` begins and `xs[:k]` ends, for a list of length `n`. -/
def sliceBound (n : ℕ) (k : ℤ) : ℕ := if k < 0 then (n + k).toNat else min k.toNat n

/-- data_utils.py:328-352 `split_dataset`.  `indices` is the draw without replacement of all rows; it
is a function of the number of rows.  The product is exact here, a float in the code. -/
def splitDataset {K : Type} [Field K] [LinearOrder K] [FloorRing K] (draw : ℕ → List ℕ)
    (fraction : K) (data : DataDict α) : Except Err (DataDict α × DataDict α) :=
  match data.rows with
  | .error e => .error e
  | .ok n =>
    let indices := draw n
    let cut := sliceBound n (pyInt (n * fraction))
    match data.take (indices.drop cut) with
    | .error e => .error e
    | .ok train =>
      match data.take (indices.take cut) with
      | .error e => .error e
      | .ok test => .ok (train, test)

/-- data_utils.py:306-325 `bootstrap_dataset`.  `draw` is the draw with replacement, `listOfSet` the
order in which Python lists a set.  An empty list becomes an array of floats, which cannot be an
index. -/
def bootstrapDataset (draw : ℕ → List ℕ) (listOfSet : List ℕ → List ℕ) (data : DataDict α) :
    Except Err (DataDict α × DataDict α) :=
  match data.rows with
  | .error e => .error e
  | .ok n =>
    let indices := draw n
    match data.take indices with
    | .error e => .error e
    | .ok train =>
      let testIndices := listOfSet ((List.range n).filter (fun i => decide (i ∉ indices)))
      if testIndices = [] then .error .indexError
      else
        match data.take testIndices with
        | .error e => .error e
        | .ok test => .ok (train, test)

/-- `jax.lax.dynamic_slice_in_dim`: `TypeError` for a slice longer than the array, the start clamped
so that the slice fits. -/
def dynamicSlice (xs : List α) (start size : ℕ) : Except Err (List α) :=
  if size ≤ xs.length then .ok ((xs.drop (min start (xs.length - size))).take size)
  else .error .typeError

/-- learn_rates.py:193-201: the indices of the batches of one epoch, for a permutation of the rows.
`jnp.stack` raises on an empty list. -/
def batchIndices (indices : List ℕ) (batchSize : ℕ) : Except Err (List (List ℕ)) :=
  if batchSize = 0 then .error .zeroDivision
  else
    match (List.range (indices.length / batchSize)).mapM
        (fun index => dynamicSlice indices (index * batchSize) batchSize) with
    | .error e => .error e
    | .ok [] => .error .valueError
    | .ok bs => .ok bs

/-- learn_rates.py:167-233 `train_epoch`: one training step for each batch, in order.  The optimiser
step is a parameter; it sees the rows of one batch of each array. -/
def trainEpoch {S : Type} (shuffle : ℕ → List ℕ) (step : S → DataDict α → S) (batchSize : ℕ)
    (data : DataDict α) (s : S) : Except Err S :=
  match data.rows with
  | .error e => .error e
  | .ok n =>
    match batchIndices (shuffle n) batchSize with
    | .error e => .error e
    | .ok bs =>
      match bs.mapM data.take with
      | .error e => .error e
      | .ok batches => .ok (batches.foldl step s)

end PD
