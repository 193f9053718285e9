/- Model of which examples the training programs use (atom_detection/train.py, image_alignment/train.py and
graph_alignment/train.py with their dataset.py).  `E` is an example, `W` a training state, `M` the metrics of an
evaluation; what a step does with a batch is any function. -/
import Verif.Model.Training
import Mathlib.Logic.Equiv.Basic
import Mathlib.Data.Fintype.Defs

namespace PD

/-- `grain.load_from_tfds(shuffle=True, seed=seed, …)` (atom_detection/dataset.py:95-114,
image_alignment/dataset.py:121-142, graph_alignment/dataset.py:39-60) for one process: the records are read over and
over, in an order that is drawn anew for every pass. -/
structure Loader (E : Type) where
  size : ℕ
  pos : 0 < size
  records : Fin size → E
  order : ℕ → Equiv.Perm (Fin size)

variable {E W M : Type}

/-- Which of the records is read at an index. -/
def Loader.index (l : Loader E) (i : ℕ) : Fin l.size := l.order (i / l.size) ⟨i % l.size, Nat.mod_lt i l.pos⟩

/-- The record that is read at an index. -/
def Loader.record (l : Loader E) (i : ℕ) : E := l.records (l.index i)

/-- `loader.as_dataset(start_index=…)` (atom_detection/dataset.py:117-118, image_alignment/dataset.py:144-150,
graph_alignment/dataset.py:62-63): batch number `j`.  With one process all three begin with index 1. -/
def Loader.batch (l : Loader E) (size j : ℕ) : List E := (List.range size).map fun i => l.record (1 + j * size + i)

/-- `itertools.islice(iterator, n)` of an iterator that has returned `done` batches: the next `n`, and how many it has
returned then. -/
def islice (batches : ℕ → List E) (n done : ℕ) : List (List E) × ℕ :=
  ((List.range n).map fun j => batches (done + j), done + n)

/-- The three training programs. -/
inductive TrainProgram
  | detector
  | aligner
  | graph
  deriving DecidableEq

/-- The configuration, as far as it matters here (atom_detection/train.py:62-67, image_alignment/train.py:64-70,
graph_alignment/train.py:103-108). -/
structure TrainJob where
  trainSteps : ℕ
  evalSteps : ℕ
  batchSize : ℕ
  epochs : ℕ

/-- The defaults. -/
def TrainProgram.defaults : TrainProgram → TrainJob
  | .detector => ⟨500000, 50000, 128, 100⟩
  | .aligner => ⟨50000, 50000, 32, 1000⟩
  | .graph => ⟨1000000, 100000, 128, 100⟩

/-- The size of the batches that are read.  image_alignment/train.py:288-293 hands the configured one to the data set;
atom_detection/train.py:194-196 and graph_alignment/train.py:285-287 do not, and the defaults of
atom_detection/dataset.py:76 and graph_alignment/dataset.py:26 count. -/
def TrainProgram.loaderBatch : TrainProgram → TrainJob → ℕ
  | .detector, _ => 128
  | .aligner, job => job.batchSize
  | .graph, _ => 16

/-- What the programs do with batches: `init` is the state made from the first batch (the detector ignores it),
`clear` is `state.replace(metrics=Metrics.empty())`. -/
structure Learner (E W M : Type) where
  init : List E → W
  clear : W → W
  step : W → List E → W
  noMetrics : M
  evalStep : W → M → List E → M

/-- Where a run is: the checkpoints, the state, what the iterators have returned, and the metrics written. -/
structure TrainPoint (W M : Type) where
  disk : Checkpoints W
  state : W
  trainAt : ℕ
  testAt : ℕ
  written : List (ℕ × M)

/-- The body of the loop over epochs (atom_detection/train.py:226-274, image_alignment/train.py:398-447,
graph_alignment/train.py:392-445). -/
def dataEpoch (p : TrainProgram) (job : TrainJob) (L : Learner E W M) (train test : Loader E) (s : TrainPoint W M)
    (epoch : ℕ) : TrainPoint W M :=
  let (batches, trainAt) := islice (train.batch (p.loaderBatch job)) (job.trainSteps / job.batchSize) s.trainAt
  let state := batches.foldl L.step (L.clear s.state)
  let (evals, testAt) := islice (test.batch (p.loaderBatch job)) (job.evalSteps / job.batchSize) s.testAt
  let metrics := evals.foldl (L.evalStep state) L.noMetrics
  ⟨s.disk.save epoch state, state, trainAt, testAt, s.written ++ [(epoch, metrics)]⟩

/-- One run of `train`: atom_detection/train.py:153-277, image_alignment/train.py:270-450,
graph_alignment/train.py:265-451.  The iterators begin anew; the first batch, from which the state is made, is taken
from another iterator (image_alignment/train.py:302, graph_alignment/train.py:305).  `crash = some n` stops the run
after `n` of its epochs.  A batch size of zero makes the computation of the learning rate raise. -/
def dataRun (p : TrainProgram) (job : TrainJob) (L : Learner E W M) (train test : Loader E) (crash : Option ℕ)
    (c : Checkpoints W) : Except Err (TrainPoint W M) :=
  if job.batchSize = 0 then .error .zeroDivision
  else
    match startState c (L.init (train.batch (p.loaderBatch job) 0)) with
    | .error e => .error e
    | .ok w =>
      let start := c.latestStep.getD 0
      let todo := List.range' start (job.epochs - start)
      match crash with
      | some n => .ok ((todo.take n).foldl (dataEpoch p job L train test) ⟨c, w, 0, 0, []⟩)
      | none =>
        let s := todo.foldl (dataEpoch p job L train test) ⟨c, w, 0, 0, []⟩
        .ok { s with disk := s.disk.save job.epochs s.state }

/-- What is on disk after runs that are stopped one after the other, each after the given number of epochs, with the
given data sets (which depend on the seed). -/
def stoppedRuns (p : TrainProgram) (job : TrainJob) (L : Learner E W M) :
    List (ℕ × Loader E × Loader E) → Checkpoints W → Checkpoints W
  | [], c => c
  | (n, train, test) :: rest, c =>
    match dataRun p job L train test (some n) c with
    | .error _ => stoppedRuns p job L rest c
    | .ok s => stoppedRuns p job L rest s.disk

end PD
