/- Model of which checkpoint is packed: training saves a state with its metrics after each epoch, and
atom_detection/save_model.py and image_alignment/save_model.py pack the best one. -/
import Verif.Model.Training
import Mathlib.Algebra.Order.Field.Basic
import Mathlib.Data.List.Sort

namespace PD

/-- The dictionary of metrics of an epoch.  The key `'eval/loss'` is the pair of `"eval/"` and `"loss"`. -/
abbrev MetricDict (K : Type) := List ((String × String) × K)

section
variable {K W M : Type}

/-- atom_detection/train.py:151-152, image_alignment/train.py:266-267, graph_alignment/train.py:261-262
`prefix_dict_keys`. -/
def prefixKeys (p : String) (m : List (String × K)) : MetricDict K := m.map (fun x => ((p, x.1), x.2))

/-- `metrics = prefix(train, 'train/'); metrics |= prefix(eval, 'eval/')` (atom_detection/train.py:256-257,
image_alignment/train.py:429-430, graph_alignment/train.py:423-424): for equal keys the later value counts, so it
is put first. -/
def epochMetrics (train eval : List (String × K)) : MetricDict K := prefixKeys "eval/" eval ++ prefixKeys "train/" train

/-- `metrics[key]`; a missing key raises `KeyError`. -/
def MetricDict.get (m : MetricDict K) (key : String × String) : Except Err K :=
  match m.lookup key with
  | none => .error .notFound
  | some v => .ok v

/-- What the `TrainMetrics` and `EvalMetrics` of atom_detection/train.py:70-83 hold. -/
structure DetectorScores (K : Type) where
  accuracy : K
  loss : K
  evalAccuracy : K

/-- atom_detection/train.py:256-257 on these. -/
def DetectorScores.dict (s : DetectorScores K) : MetricDict K :=
  epochMetrics [("accuracy", s.accuracy), ("loss", s.loss)] [("accuracy", s.evalAccuracy)]

/-- image_alignment/train.py:76-88 `Metrics`. -/
structure AlignerScores (K : Type) where
  accuracy : K
  loss : K
  driftLoss : K
  driftError : K
  finalAccuracy : K
  finalLoss : K
  finalDriftLoss : K
  finalDriftError : K

/-- `Metrics.compute()` (image_alignment/train.py:76-88). -/
def AlignerScores.compute (s : AlignerScores K) : List (String × K) :=
  [("accuracy", s.accuracy), ("loss", s.loss), ("drift_loss", s.driftLoss), ("drift_error", s.driftError),
   ("final_step_accuracy", s.finalAccuracy), ("final_step_loss", s.finalLoss),
   ("final_step_drift_loss", s.finalDriftLoss), ("final_step_drift_error", s.finalDriftError)]

/-- image_alignment/train.py:429-430. -/
def alignerDict (train eval : AlignerScores K) : MetricDict K := epochMetrics train.compute eval.compute

/-- graph_alignment/train.py:116-121 `Metrics`. -/
structure GraphScores (K : Type) where
  totalLoss : K
  globalLoss : K
  localLoss : K
  localError : K
  globalError : K

/-- `Metrics.compute()` (graph_alignment/train.py:116-121). -/
def GraphScores.compute (s : GraphScores K) : List (String × K) :=
  [("total_loss", s.totalLoss), ("global_loss", s.globalLoss), ("local_loss", s.localLoss),
   ("local_error", s.localError), ("global_error", s.globalError)]

/-- graph_alignment/train.py:423-424. -/
def graphDict (train eval : GraphScores K) : MetricDict K := epochMetrics train.compute eval.compute

/-- atom_detection/save_model.py:75 `best_fn`. -/
def detectorBest (m : MetricDict K) : Except Err K := m.get ("eval/", "accuracy")

/-- image_alignment/save_model.py:77 `best_fn`. -/
def alignerBest [Field K] (m : MetricDict K) : Except Err K :=
  match m.get ("eval/", "loss") with
  | .error e => .error e
  | .ok l =>
    match m.get ("eval/", "drift_error") with
    | .error e => .error e
    | .ok d => .ok (-l - d)

/-- graph_alignment/train.py:279 `best_fn`. -/
def graphBest (m : MetricDict K) : Except Err K := m.get ("eval/", "total_loss")

/-- The score of a checkpoint, if it was saved with metrics. -/
def scoreOf (best : M → Except Err K) (x : ℕ × W × Option M) : Option (Except Err (K × ℕ)) :=
  x.2.2.map (fun m => (best m).map (fun s => (s, x.1)))

/-- orbax `CheckpointManager.best_step` with `best_fn` and the default `best_mode='max'`: checkpoints without
metrics are left out, the others sorted by `best_fn` (stably, from the oldest on), and the last one is taken. -/
def bestStep [LinearOrder K] (best : M → Except Err K) (c : Checkpoints (W × Option M)) : Except Err (Option ℕ) :=
  match (c.reverse.filterMap (scoreOf best)).mapM id with
  | .error e => .error e
  | .ok scores => .ok ((scores.insertionSort (fun a b => a.1 ≤ b.1)).getLast?.map Prod.snd)

/-- atom_detection/save_model.py:82-84 and image_alignment/save_model.py:95-97: the state that is packed.
`restore(None)`, when there is no best step, finds no checkpoint. -/
def packBest [LinearOrder K] (best : M → Except Err K) (c : Checkpoints (W × Option M)) : Except Err W :=
  match bestStep best c with
  | .error e => .error e
  | .ok none => .error .notFound
  | .ok (some k) =>
    match c.restore k with
    | none => .error .notFound
    | some (w, _) => .ok w

/-- One epoch with its evaluation: what is saved are the state and the metrics (atom_detection/train.py:226-263,
image_alignment/train.py:398-436, graph_alignment/train.py:392-439).  `eval k w` are the metrics of epoch `k` that
led to state `w`. -/
def evaluated (epoch : ℕ → W → W) (eval : ℕ → W → M) (k : ℕ) (s : W × Option M) : W × Option M :=
  let w := epoch k s.1
  (w, some (eval k w))

/-- One run of `train` as in `trainRun`, with the metrics saved: the final state is saved without
(atom_detection/train.py:276, image_alignment/train.py:449, graph_alignment/train.py:450). -/
def scoredRun (epoch : ℕ → W → W) (eval : ℕ → W → M) (init : W) (epochs : ℕ) (crash : Option ℕ)
    (c : Checkpoints (W × Option M)) : Checkpoints (W × Option M) :=
  match startState c (init, none) with
  | .error _ => c
  | .ok w =>
    let start := c.latestStep.getD 0
    let todo := List.range' start (epochs - start)
    match crash with
    | some n => (epochLoop (evaluated epoch eval) (todo.take n) (c, w)).1
    | none =>
      let s := epochLoop (evaluated epoch eval) todo (c, w)
      s.1.save epochs (s.2.1, none)

/-- Several runs, each crashing after the given number of epochs or (`none`) completing. -/
def scoredRuns (epoch : ℕ → W → W) (eval : ℕ → W → M) (init : W) (epochs : ℕ) :
    List (Option ℕ) → Checkpoints (W × Option M) → Checkpoints (W × Option M)
  | [], c => c
  | r :: rs, c => scoredRuns epoch eval init epochs rs (scoredRun epoch eval init epochs r c)

end
end PD
