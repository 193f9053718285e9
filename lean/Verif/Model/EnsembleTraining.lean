/- Model of training the ensemble of the rate predictor (rate_learning/learn_rates.py:167-330, 603-653, 734-776). -/
import Verif.Model.Distill

namespace PD

/-- What stays the same during training.  `width` is the width of the contexts, positions included;
`initParams` the parameters `init_fn` draws (they depend on the key and the width); `descend` a step of the optimiser
for a loss, as in `Distilling`; `split` and `permutation` are those of `jax.random`. -/
structure Training (P O G : Type) where
  net : Mlp P G
  width : ℕ
  classWeight : ℝ
  rateWeight : ℝ
  batchSize : ℕ
  epochs : ℕ
  initParams : G → P
  initOpt : P → O
  descend : (P → ℝ) → P → O → P × O
  split : G → ℕ → List G
  permutation : G → ℕ → List ℕ

/-- `array[batch_inds]` for the arrays of a member (learn_rates.py:202). -/
def MemberData.take (d : MemberData) (idx : List ℕ) : Except Err MemberData := do
  let states ← takeRows d.states idx
  let dt ← takeRows d.dt idx
  let rates ← takeRows d.rates idx
  let context ← takeRows d.context idx
  return { states := states, dt := dt, rates := rates, context := context }

/-- The rows of a batch with the outputs of the network, as `batched_loss_fn` combines them
(learn_rates.py:132-150).  States are not negative. -/
def lossExamples (outs : List (List ℝ)) (d : MemberData) : List LossExample :=
  List.zipWith (fun out sd => { out := out, nextState := sd.1.toNat, elapsed := sd.2 }) outs (d.states.zip d.dt)

/-- learn_rates.py:289-326: what is reported after an epoch. -/
structure EpochMetrics where
  trainLoss : ℝ
  testLoss : ℝ
  trainRateLoss : ℝ
  trainClassLoss : ℝ
  testRateLoss : ℝ
  testClassLoss : ℝ

section
variable {P O G : Type}

/-- learn_rates.py:102-164 `batched_loss_fn` in training, with the configured weights: the loss and the new state. -/
noncomputable def Training.loss (c : Training P O G) (p : P) (s : BnState) (batch : MemberData) (key : G) : ℝ × BnState :=
  let (outs, s') := c.net.train c.width p s key batch.context
  (batchedLoss c.classWeight c.rateWeight (lossExamples outs batch), s')

/-- learn_rates.py:204-227 `train_step`. -/
noncomputable def Training.step (c : Training P O G) (key : G) (st : Student P O) (batch : MemberData) : Student P O :=
  let (_, s') := c.loss st.params st.state batch key
  let (p', o') := c.descend (fun p => (c.loss p st.state batch key).1) st.params st.opt
  ⟨p', s', o'⟩

/-- learn_rates.py:167-233 `train_epoch`.  All steps get the same key. -/
noncomputable def Training.epoch (c : Training P O G) (d : MemberData) (st : Student P O) (key : G) :
    Except Err (Student P O × G) :=
  match c.split key 2 with
  | [key, dataKey] =>
    match batchIndices (c.permutation dataKey d.states.length) c.batchSize with
    | .error e => .error e
    | .ok bs =>
      match bs.mapM d.take with
      | .error e => .error e
      | .ok batches => .ok (batches.foldl (c.step key) st, key)
  | _ => .error .valueError

/-- `batched_loss_fn` outside training (learn_rates.py:289-318): the network's outputs for all rows. -/
noncomputable def Training.evaluated (c : Training P O G) (st : Student P O) (d : MemberData) : List LossExample :=
  lossExamples (d.context.map (c.net.eval st.params st.state)) d

/-- `jnp.mean(total_rate_loss)` (learn_rates.py:322, 324). -/
noncomputable def meanRateLoss (es : List LossExample) : ℝ :=
  vecMean (es.map (fun e => rateLoss ((e.out.getLast?).getD 0) e.elapsed (didTransition e.nextState)))

/-- `jnp.mean(next_state_loss)` (learn_rates.py:323, 325). -/
noncomputable def meanClassLoss (es : List LossExample) : ℝ :=
  vecMean (es.map (fun e => classLoss e.out.dropLast e.nextState (didTransition e.nextState)))

/-- learn_rates.py:289-326: the metrics, with the default weights of the loss. -/
noncomputable def Training.metrics (c : Training P O G) (st : Student P O) (train test : MemberData) : EpochMetrics where
  trainLoss := batchedLoss 1 1 (c.evaluated st train)
  testLoss := batchedLoss 1 1 (c.evaluated st test)
  trainRateLoss := meanRateLoss (c.evaluated st train)
  trainClassLoss := meanClassLoss (c.evaluated st train)
  testRateLoss := meanRateLoss (c.evaluated st test)
  testClassLoss := meanClassLoss (c.evaluated st test)

/-- The scan of learn_rates.py:276-338 over the keys of the epochs. -/
noncomputable def Training.scan (c : Training P O G) (train test : MemberData) :
    List G → Student P O → Except Err (Student P O × List EpochMetrics)
  | [], st => .ok (st, [])
  | k :: ks, st =>
    match c.epoch train st k with
    | .error e => .error e
    | .ok (st', _) =>
      match c.scan train test ks st' with
      | .error e => .error e
      | .ok (st'', ms) => .ok (st'', c.metrics st' train test :: ms)

/-- learn_rates.py:236-330 `train_model`. -/
noncomputable def Training.model (c : Training P O G) (train test : MemberData) (key : G) (st : Student P O) :
    Except Err (Student P O × List EpochMetrics) :=
  c.scan train test (c.split key c.epochs) st

/-- `init_fn(key, init_context)` and `optim.init` (learn_rates.py:636-643).  The state is that of the
normalisation, if there is one. -/
noncomputable def Training.init (c : Training P O G) (initContext : List (List ℝ)) (key : G) : Student P O where
  params := c.initParams key
  state := if c.net.batchnorm then bnInit c.width initContext else ⟨⟨[], [], 0⟩, ⟨[], [], 0⟩⟩
  opt := c.initOpt (c.initParams key)

/-- learn_rates.py:603-653 `train_multiple_models`: `vmap` trains the members one by one; all are initialised with
the first row of the first member.  Stacking no parameters raises. -/
noncomputable def Training.members (c : Training P O G) (trains tests : List MemberData) (n : ℕ) (key : G) :
    Except Err (List (Student P O × List EpochMetrics)) :=
  if trains.length ≠ n then .error .assertionError
  else if tests.length ≠ n then .error .assertionError
  else
    match trains with
    | [] => .error .typeError
    | first :: _ =>
      match c.split key 2 with
      | [trainKey, initKey] =>
        let students := (c.split initKey n).map (c.init (first.context.take 1))
        ((trains.zip tests).zip ((c.split trainKey n).zip students)).mapM
          (fun m => c.model m.1.1 m.1.2 m.2.1 m.2.2)
      | _ => .error .valueError

/-- learn_rates.py:734-776 `train`: the predictor's key, and the members with their metrics.  `draw` are the rows a key
of the data sets stands for (see `createDatasetSplits`). -/
noncomputable def Training.train (c : Training P O G) (draw : G → ℕ → List ℕ) (listOfSet : List ℕ → List ℕ) (n : ℕ)
    (bootstrap augment : Bool) (fraction : ℝ) (d : RateData) (key : G) :
    Except Err (G × List (Student P O × List EpochMetrics)) :=
  match c.split key 3 with
  | [rng, dataKey, trainKey] =>
    match createDatasetSplits ((c.split dataKey n).map draw) listOfSet bootstrap augment fraction d with
    | .error e => .error e
    | .ok (trains, tests) =>
      match c.members trains tests n trainKey with
      | .error e => .error e
      | .ok ms => .ok (rng, ms)
  | _ => .error .valueError

end

end PD
