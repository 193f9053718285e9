/- Model of the learned rate predictor and its loss (rate_learning/learn_rates.py), over the real
numbers.  Networks are parameters: what is modelled is what is done with their outputs. -/
import Verif.Model.DataPoints
import Mathlib.Analysis.SpecialFunctions.Log.Basic

namespace PD

/-- `jax.nn.softplus`. -/
noncomputable def softplus (x : ℝ) : ℝ := Real.log (1 + Real.exp x)

/-- learn_rates.py:80-99 `get_mlp_fn`: the last operation of the network, on its raw outputs. -/
noncomputable def networkOutput (z : List ℝ) : List ℝ := z.map softplus

/-- `jnp.max`. -/
noncomputable def listMax (xs : List ℝ) : ℝ := (xs.max?).getD 0

/-- `jax.nn.softmax`, which subtracts the maximum first. -/
noncomputable def softmax (xs : List ℝ) : List ℝ :=
  let e := xs.map (fun x => Real.exp (x - listMax xs))
  e.map (fun a => a / e.sum)

/-- `jax.nn.log_softmax`. -/
noncomputable def logSoftmax (xs : List ℝ) : List ℝ :=
  xs.map (fun x => x - listMax xs - Real.log ((xs.map (fun y => Real.exp (y - listMax xs))).sum))

/-- learn_rates.py:730-732: the rates of one model for one input. -/
noncomputable def splitRates (out : List ℝ) : List ℝ :=
  (softmax out.dropLast).map (fun w => (out.getLast?).getD 0 * w)

/-- `.mean(0)` over the models, `s` columns. -/
noncomputable def columnMeans (s : ℕ) (rows : List (List ℝ)) : List ℝ :=
  (List.range s).map (fun j => ((rows.map (fun r => r.getD j 0)).sum) / rows.length)

/-- learn_rates.py:704-732 `apply_model` for one input: the outputs of the models of the ensemble (or of
the one chosen), each of length `s + 1`. -/
noncomputable def applyModel (s : ℕ) (outs : List (List ℝ)) : List ℝ :=
  columnMeans s (outs.map splitRates)

/-- learn_rates.py:136-139: the probability of no transition, kept below one. -/
noncomputable def noTransitionProb (total elapsed : ℝ) : ℝ :=
  min (Real.exp (-total * elapsed)) (1 - 1 / 1000000)

/-- learn_rates.py:135-144: the loss on the total rate; `did` is 0 or 1. -/
noncomputable def rateLoss (total elapsed did : ℝ) : ℝ :=
  -(did * Real.log (1 - noTransitionProb total elapsed) + (1 - did) * (-total * elapsed))

/-- learn_rates.py:146-150: the loss on the neighbour.  Index `next_state - 1` is −1, the last entry,
when there was no transition. -/
noncomputable def classLoss (logits : List ℝ) (nextState : ℕ) (did : ℝ) : ℝ :=
  -((logSoftmax logits).getD (if nextState = 0 then logits.length - 1 else nextState - 1) 0 * did)

/-- learn_rates.py:292, 313, 324, 218: whether there was a transition. -/
def didTransition (nextState : ℕ) : ℝ := if nextState ≠ 0 then 1 else 0

/-- One example of a minibatch: the network's outputs, the label and the time. -/
structure LossExample where
  out : List ℝ
  nextState : ℕ
  elapsed : ℝ

/-- learn_rates.py:153-155: the loss of one example. -/
noncomputable def exampleLoss (classWeight rateWeight : ℝ) (e : LossExample) : ℝ :=
  classLoss e.out.dropLast e.nextState (didTransition e.nextState) * classWeight +
    rateLoss ((e.out.getLast?).getD 0) e.elapsed (didTransition e.nextState) * rateWeight

/-- learn_rates.py:102-164 `batched_loss_fn`, the loss.  (The mean of an empty batch is not a number
in the code, 0 here; statements exclude it.) -/
noncomputable def batchedLoss (classWeight rateWeight : ℝ) (es : List LossExample) : ℝ :=
  ((es.map (exampleLoss classWeight rateWeight)).sum) / es.length

/-- learn_rates.py:151, 160: what the loss reports as predicted rates of an example: the softmax is
taken over the last output alone. -/
noncomputable def reportedRates (out : List ℝ) : List ℝ :=
  let last := out.drop (out.length - 1)
  (softmax last).zipWith (fun p t => p * t) last

/-- learn_rates.py:900-910: the packaged model; squeezing the axis of the models raises unless there is
exactly one. -/
noncomputable def packagedModel (nets : List (V2 ℝ → List ℝ)) (x : V2 ℝ) : Except Err (List ℝ) :=
  match nets with
  | [net] => .ok (net x)
  | _ => .error .valueError

/-- learn_rates.py:945-962: the network's input and the order of the neighbours.  Putting the voltage or
the current in front of the context concatenates a number with an array, which raises; so the context is
the position. -/
noncomputable def predictInput (useVoltage useCurrent : Bool) (grid : Grid ℝ) (beam current : V2 ℝ)
    (idx : List ℕ) : Except Err (V2 ℝ × List ℕ) :=
  match takeRows grid.positions idx with
  | .error e => .error e
  | .ok nbrs =>
    let d := beam - current
    match standardize ⟨d.x / BOND, d.y / BOND⟩ (nbrs.map (fun p => p - current)) with
    | .error e => .error e
    | .ok (newBeam, _, order) =>
      if useVoltage then .error .valueError
      else if useCurrent then .error .valueError
      else .ok (newBeam, order)

/-- learn_rates.py:925-972 `predict`, for the networks of the packaged model. -/
noncomputable def learnedPredict (useVoltage useCurrent : Bool) (nets : List (V2 ℝ → List ℝ))
    (grid : Grid ℝ) (beam current : V2 ℝ) (idx : List ℕ) : Except Err (List ℝ) :=
  match predictInput useVoltage useCurrent grid beam current idx with
  | .error e => .error e
  | .ok (newBeam, order) =>
    match packagedModel nets newBeam with
    | .error e => .error e
    | .ok rates => takeRows rates (argsort order)

end PD
