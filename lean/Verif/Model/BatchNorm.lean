/- Model of the network of the rate predictor up to its layers: the standardisation of the inputs with
batch and running statistics (rate_learning/learn_rates.py:80-99, with haiku's `BatchNorm` and
`ExponentialMovingAverage`). -/
import Verif.Model.Learn

namespace PD

/-- haiku's `ExponentialMovingAverage` with `zero_debias`, as `hk.BatchNorm(True, True, 0.9)` makes it
(learn_rates.py:90): the decayed sum, the number of values and the average that is read. -/
structure RunningMean where
  hidden : List ℝ
  average : List ℝ
  counter : ℕ

/-- learn_rates.py:90: the third argument of `hk.BatchNorm`. -/
noncomputable def bnDecay : ℝ := 9 / 10

/-- The default `eps` of `hk.BatchNorm`. -/
noncomputable def bnEps : ℝ := 1 / 100000

/-- `ExponentialMovingAverage.__call__`: a new value. -/
noncomputable def RunningMean.update (value : List ℝ) (e : RunningMean) : RunningMean :=
  let hidden := List.zipWith (fun h v => h * bnDecay + v * (1 - bnDecay)) e.hidden value
  { hidden := hidden
    average := hidden.map (fun h => h / (1 - bnDecay ^ (e.counter + 1)))
    counter := e.counter + 1 }

/-- The state of the normalisation. -/
structure BnState where
  mean : RunningMean
  var : RunningMean

/-- The parameters of the normalisation (learn_rates.py:90: with scale and with offset). -/
structure BnParams where
  scale : List ℝ
  offset : List ℝ

/-- `jnp.mean(x², 0) - jnp.mean(x, 0)²`, `d` columns. -/
noncomputable def columnVars (d : ℕ) (rows : List (List ℝ)) : List ℝ :=
  List.zipWith (fun s m => s - m ^ 2) (columnMeans d (rows.map (fun r => r.map (fun x => x ^ 2))))
    (columnMeans d rows)

/-- `(x - mean) * (scale / sqrt(var + eps)) + offset` for one row. -/
noncomputable def bnNormalise (p : BnParams) (mean var : List ℝ) (x : List ℝ) : List ℝ :=
  (List.range x.length).map (fun j =>
    (x.getD j 0 - mean.getD j 0) * (p.scale.getD j 0 * (1 / Real.sqrt (var.getD j 0 + bnEps))) + p.offset.getD j 0)

/-- `BatchNorm.__call__` in training: the rows are normalised with their own statistics, which enter the
running ones. -/
noncomputable def bnTrain (d : ℕ) (p : BnParams) (s : BnState) (rows : List (List ℝ)) :
    List (List ℝ) × BnState :=
  let mean := columnMeans d rows
  let var := columnVars d rows
  (rows.map (bnNormalise p mean var), ⟨s.mean.update mean, s.var.update var⟩)

/-- `BatchNorm.__call__` outside training: the running statistics are used. -/
noncomputable def bnEval (p : BnParams) (s : BnState) (x : List ℝ) : List ℝ :=
  bnNormalise p s.mean.average s.var.average x

/-- What `init` leaves (haiku takes the first values for the averages that are read): the averages are
those of the rows it was given, nothing counts yet. -/
noncomputable def bnInit (d : ℕ) (rows : List (List ℝ)) : BnState where
  mean := ⟨List.replicate d 0, columnMeans d rows, 0⟩
  var := ⟨List.replicate d 0, columnVars d rows, 0⟩

/-- The running statistics after batches of training data. -/
noncomputable def bnAfter (d : ℕ) (p : BnParams) (s : BnState) (batches : List (List (List ℝ))) : BnState :=
  batches.foldl (fun s rows => (bnTrain d p s rows).2) s

/-- learn_rates.py:80-99 `get_mlp_fn`: whether inputs are normalised, with which parameters, and the layers
after that with the `softplus`.  The layers get a random key and the number of the row when they drop out
units, that is in training. -/
structure Mlp (P G : Type) where
  batchnorm : Bool
  norm : P → BnParams
  layers : P → Option (G × ℕ) → List ℝ → List ℝ

variable {P G : Type}

/-- `apply_fn(params, state, key, rows, True)`. -/
noncomputable def Mlp.train (m : Mlp P G) (d : ℕ) (p : P) (s : BnState) (key : G) (rows : List (List ℝ)) :
    List (List ℝ) × BnState :=
  if m.batchnorm then
    let (xs, s') := bnTrain d (m.norm p) s rows
    (xs.zipIdx.map (fun xi => m.layers p (some (key, xi.2)) xi.1), s')
  else (rows.zipIdx.map (fun xi => m.layers p (some (key, xi.2)) xi.1), s)

/-- `apply_fn(params, state, key, x, False)` for one row; the rows do not depend on each other. -/
noncomputable def Mlp.eval (m : Mlp P G) (p : P) (s : BnState) (x : List ℝ) : List ℝ :=
  if m.batchnorm then m.layers p none (bnEval (m.norm p) s x) else m.layers p none x

end PD
