/- Model of the learning rate of the training programs and of the steps of the optimiser
(atom_detection/train.py:177-186, image_alignment/train.py:317-326, graph_alignment/train.py:331-340). -/
import Verif.Model.Basic
import Mathlib.Analysis.SpecialFunctions.Trigonometric.Basic

namespace PD

/-- `config.train_steps_per_epoch // config.batch_size`, for settings that are not negative. -/
def stepsPerEpoch (trainSteps batchSize : ℕ) : Except Err ℕ :=
  if batchSize = 0 then .error .zeroDivision else .ok (trainSteps / batchSize)

/-- optax `linear_schedule(0, peak, w)` at a step: `(init - end) * (1 - count / w) + end`. -/
noncomputable def linearSchedule (peak : ℝ) (w s : ℕ) : ℝ :=
  if w = 0 then 0 else (0 - peak) * (1 - ((min s w : ℕ) : ℝ) / w) + peak

/-- optax `cosine_decay_schedule(peak, d)` at a step, for `d > 0`. -/
noncomputable def cosineSchedule (peak : ℝ) (d s : ℕ) : ℝ :=
  peak * (1 / 2 * (1 + Real.cos (Real.pi * (((min s d : ℕ) : ℝ) / d))))

/-- atom_detection/train.py:177-184, image_alignment/train.py:317-324, graph_alignment/train.py:331-338, with `n`
steps per epoch: `optax.warmup_cosine_decay_schedule(0, peak, warmup_steps=n // 5, decay_steps=epochs * n - n // 5)`.
optax takes `decay_steps` to include the warmup: the cosine is `decay_steps - warmup_steps` steps long, and
`cosine_decay_schedule` raises if this is not positive. -/
noncomputable def learningRate (peak : ℝ) (epochs n : ℕ) : Except Err (ℕ → ℝ) :=
  let warmup := n / 5
  let decay : ℤ := (epochs * n : ℤ) - (n / 5 : ℕ)
  if decay - warmup ≤ 0 then .error .valueError
  else .ok (fun s => if s < warmup then linearSchedule peak warmup s
    else cosineSchedule peak (decay - warmup).toNat (s - warmup))

/-- optax `adamw`: what the moments `M` become for a batch `B`, and the direction scaled by them; and the factor
of the weights themselves (`weight_decay`). -/
structure AdamW (M B : Type) where
  moments : M → List ℝ → B → M
  direction : M → List ℝ → B → List ℝ
  weightDecay : ℝ

/-- The part of `TrainState` that training changes. -/
structure OptState (M : Type) where
  params : List ℝ
  moments : M
  count : ℕ

/-- `state.apply_gradients`: `params + (-lr) * (direction + weight_decay * params)`, with the learning rate at
the number of steps made before.  (The direction has an entry for each parameter.) -/
def OptState.step {M B : Type} (o : AdamW M B) (lr : ℕ → ℝ) (s : OptState M) (b : B) : OptState M :=
  ⟨s.params.mapIdx (fun i p => p + -(lr s.count) * ((o.direction s.moments s.params b).getD i 0 + o.weightDecay * p)),
    o.moments s.moments s.params b, s.count + 1⟩

/-- `functools.reduce(train_step, batches, state)`, over all epochs. -/
def OptState.steps {M B : Type} (o : AdamW M B) (lr : ℕ → ℝ) (s : OptState M) (bs : List B) : OptState M :=
  bs.foldl (OptState.step o lr) s

end PD
