/- Model of distilling an ensemble into one network (rate_learning/learn_rates.py:332-528, 778-825). -/
import Verif.Model.BatchNorm
import Verif.Model.Ensemble

namespace PD

/-- `jnp.mean` of a vector. -/
noncomputable def vecMean (xs : List ℝ) : ℝ := xs.sum / xs.length

/-- learn_rates.py:370-372, 379-381: the outputs of a network as rates of the neighbours. -/
noncomputable def perNeighbor (out : List ℝ) : List ℝ :=
  (softmax out.dropLast).map (fun w => w * (out.getLast?).getD 0)

/-- learn_rates.py:356-364: normal numbers made into contexts. -/
noncomputable def drawnContexts (mean scale : List ℝ) (noise : List (List ℝ)) : List (List ℝ) :=
  noise.map (fun z => List.zipWith (· + ·) (List.zipWith (· * ·) z scale) mean)

/-- What stays the same during distillation.  `noise key` are the normal numbers drawn for a batch
(learn_rates.py:355-361: `jax.random.normal` of the second of three keys), `dropKey key` the first of the
three.  `descend` is a step of the optimiser for a loss: `jax.value_and_grad`, `optim.update` and
`apply_updates` (learn_rates.py:449-464); `split` is `jax.random.split`. -/
structure Distilling (P O G : Type) where
  net : Mlp P G
  ensemble : List (P × BnState)
  states : ℕ
  mean : List ℝ
  scale : List ℝ
  noise : G → List (List ℝ)
  dropKey : G → G
  descend : (P → ℝ) → P → O → P × O
  split : G → ℕ → List G

/-- The student during training. -/
structure Student (P O : Type) where
  params : P
  state : BnState
  opt : O

section
variable {P O G : Type}

/-- learn_rates.py:366-376: the mean of the rates of the ensemble. -/
noncomputable def Distilling.target (c : Distilling P O G) (x : List ℝ) : List ℝ :=
  columnMeans c.states (c.ensemble.map (fun m => perNeighbor (c.net.eval m.1 m.2 x)))

/-- learn_rates.py:383: the squared differences of one row. -/
noncomputable def squaredGap (a b : List ℝ) : ℝ := ((List.zipWith (fun x y => (x - y) ^ 2) a b)).sum

/-- learn_rates.py:332-384 `distill_loss`: the loss and the new state. -/
noncomputable def Distilling.loss (c : Distilling P O G) (p : P) (s : BnState) (key : G) : ℝ × BnState :=
  let xs := drawnContexts c.mean c.scale (c.noise key)
  let targets := xs.map c.target
  let (outs, s') := c.net.train c.mean.length p s (c.dropKey key) xs
  (vecMean (List.zipWith squaredGap (outs.map perNeighbor) targets), s')

/-- learn_rates.py:444-464 `distill_train_step`. -/
noncomputable def Distilling.step (c : Distilling P O G) (st : Student P O) (key : G) : Student P O × ℝ :=
  let (l, s') := c.loss st.params st.state key
  let (p', o') := c.descend (fun p => (c.loss p st.state key).1) st.params st.opt
  (⟨p', s', o'⟩, l)

/-- The scan of learn_rates.py:467-469: the student after the keys and the losses. -/
noncomputable def Distilling.scan (c : Distilling P O G) : List G → Student P O → Student P O × List ℝ
  | [], st => (st, [])
  | k :: ks, st =>
    let (st', l) := c.step st k
    let (st'', ls) := c.scan ks st'
    (st'', l :: ls)

/-- learn_rates.py:387-471 `distill_train_epoch`.  Without batches there is no last key; that is taken to
raise. -/
noncomputable def Distilling.epoch (c : Distilling P O G) (batches : ℕ) (st : Student P O) (key : G) :
    Except Err (Student P O × G × ℝ) :=
  let keys := c.split key batches
  match keys.getLast? with
  | none => .error .indexError
  | some last =>
    let (st', losses) := c.scan keys st
    .ok (st', last, vecMean losses)

/-- The loop of learn_rates.py:507-524. -/
noncomputable def Distilling.epochs (c : Distilling P O G) (batches : ℕ) :
    ℕ → Student P O → G → Except Err (Student P O × G × List ℝ)
  | 0, st, key => .ok (st, key, [])
  | n + 1, st, key =>
    match c.epoch batches st key with
    | .error e => .error e
    | .ok (st', key', l) =>
      match c.epochs batches n st' key' with
      | .error e => .error e
      | .ok (st'', key'', ls) => .ok (st'', key'', l :: ls)

/-- learn_rates.py:474-527 `distill_multiple_models_to_single`.  `init` is `init_fn` with `optim.init`. -/
noncomputable def Distilling.run (c : Distilling P O G) (init : G → Student P O) (epochs batches : ℕ) (key : G) :
    Except Err (Student P O × G × List ℝ) :=
  match c.split key 2 with
  | [trainKey, initKey] => c.epochs batches epochs (init initKey) trainKey
  | _ => .error .valueError

/-- `.std(0)` with `d` columns. -/
noncomputable def columnStds (d : ℕ) (rows : List (List ℝ)) : List ℝ :=
  (List.range d).map (fun j => Real.sqrt (vecMean (rows.map (fun r =>
    (r.getD j 0 - (columnMeans d rows).getD j 0) ^ 2))))

/-- learn_rates.py:797-805: means and standard deviations of the training data, contexts of width `w`
before positions. -/
noncomputable def dataMoments (w : ℕ) (d : RateData) : Except Err (List ℝ × List ℝ) :=
  match d.context with
  | none => .error .attributeError
  | some cs =>
    let ps := d.position.map (fun p => [p.x, p.y])
    .ok (columnMeans w cs ++ columnMeans 2 ps, columnStds w cs ++ columnStds 2 ps)

/-- learn_rates.py:778-825 `distill`: the networks the predictor has afterwards, its key, and the metrics.
`setup` are the parts of `Distilling` that do not come from the data or the predictor. -/
noncomputable def distill (setup : Distilling P O G) (init : G → Student P O) (w epochs batches : ℕ)
    (d : RateData) (ensemble : List (P × BnState)) (key : G) :
    Except Err (List (P × BnState) × G × List ℝ) :=
  match dataMoments w d with
  | .error e => .error e
  | .ok (mean, scale) =>
    match ({ setup with ensemble := ensemble, mean := mean, scale := scale } : Distilling P O G).run init
        epochs batches key with
    | .error e => .error e
    | .ok (st, key', losses) => .ok ([(st.params, st.state)], key', losses)

/-- learn_rates.py:704-732 `apply_model` for one context and all networks of the predictor. -/
noncomputable def ensembleRates (net : Mlp P G) (states : ℕ) (ensemble : List (P × BnState)) (x : List ℝ) : List ℝ :=
  applyModel states (ensemble.map (fun m => net.eval m.1 m.2 x))

end

end PD
