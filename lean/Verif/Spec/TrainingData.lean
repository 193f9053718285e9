/- What it means that training uses the examples it should. -/
import Verif.Model.TrainingData

namespace PD.Spec
variable {E W M : Type}

/-- `m` examples in the order in which they are read, from number `a` on. -/
def examplesFrom (l : Loader E) (a m : ℕ) : List E := (List.range m).map fun i => l.record (a + i)

/-- How often a record is among them. -/
def timesUsed (l : Loader E) (r : Fin l.size) (a m : ℕ) : ℕ := ((List.range m).map fun i => l.index (a + i)).count r

/-- Consecutive examples, from number `a` on, are learned from in `n` batches of `b`. -/
def learnFrom (L : Learner E W M) (l : Loader E) (b a n : ℕ) (w : W) : W :=
  ((List.range n).map fun j => examplesFrom l (a + j * b) b).foldl L.step (L.clear w)

/-- The metrics of a state on consecutive examples. -/
def judgedOn (L : Learner E W M) (l : Loader E) (b a n : ℕ) (w : W) : M :=
  ((List.range n).map fun j => examplesFrom l (a + j * b) b).foldl (L.evalStep w) L.noMetrics

/-- The state after `k` epochs of `n` batches of `b`, each epoch going on where the one before ended. -/
def afterDataEpochs (L : Learner E W M) (l : Loader E) (b n : ℕ) (w : W) : ℕ → W
  | 0 => w
  | k + 1 => learnFrom L l b (1 + k * (n * b)) n (afterDataEpochs L l b n w k)

/-- A learner that only remembers the examples it has learned from. -/
def remembering (E : Type) : Learner E (List E) (List E) := ⟨fun _ => [], id, (· ++ ·), [], fun _ => (· ++ ·)⟩

end PD.Spec
