/- Model of the training loop with checkpoints shared by atom_detection/train.py, image_alignment/train.py and
graph_alignment/train.py.  `W` is a training state and `epoch k w` what epoch number `k` makes of `w` (the
gradients are not modelled). -/
import Verif.Model.Basic

namespace PD

/-- orbax `CheckpointManager`: the steps on disk with their states.  Saving is taken to be atomic. -/
abbrev Checkpoints (W : Type) := List (ℕ × W)

section
variable {W : Type}

/-- `CheckpointManager.latest_step`: the largest step on disk. -/
def Checkpoints.latestStep (c : Checkpoints W) : Option ℕ := (c.map Prod.fst).max?

/-- `CheckpointManager.restore`. -/
def Checkpoints.restore (c : Checkpoints W) (step : ℕ) : Option W := c.lookup step

/-- `CheckpointManager.save`: `should_save` asks for a step beyond the latest one, otherwise nothing is
written and nothing is raised. -/
def Checkpoints.save (c : Checkpoints W) (step : ℕ) (w : W) : Checkpoints W :=
  match c.latestStep with
  | none => (step, w) :: c
  | some k => if k < step then (step, w) :: c else c

/-- atom_detection/train.py:212-219, image_alignment/train.py:346-359, graph_alignment/train.py:365-375:
`if latest_step := chkpt_manager.latest_step()` restores, but step 0 counts as false. -/
def startState (c : Checkpoints W) (init : W) : Except Err W :=
  match c.latestStep with
  | none => .ok init
  | some 0 => .ok init
  | some (k + 1) =>
    match c.restore (k + 1) with
    | none => .error .notFound
    | some w => .ok w

/-- atom_detection/train.py:222-274, image_alignment/train.py:394-447, graph_alignment/train.py:388-445: the
body of the loop for the given epochs; each is saved under its own number. -/
def epochLoop (epoch : ℕ → W → W) : List ℕ → Checkpoints W × W → Checkpoints W × W
  | [], s => s
  | e :: es, (c, w) => epochLoop epoch es (c.save e (epoch e w), epoch e w)

/-- One run of `train`: `crash = some n` stops it after `n` epochs of this run (or after all of them, before
the final save).  What it leaves on disk and, if it completes, returns. -/
def trainRun (epoch : ℕ → W → W) (init : W) (epochs : ℕ) (crash : Option ℕ) (c : Checkpoints W) :
    Checkpoints W × Except Err (Option W) :=
  match startState c init with
  | .error e => (c, .error e)
  | .ok w =>
    let start := c.latestStep.getD 0
    let todo := List.range' start (epochs - start)
    match crash with
    | some n => ((epochLoop epoch (todo.take n) (c, w)).1, .ok none)
    | none =>
      let s := epochLoop epoch todo (c, w)
      (s.1.save epochs s.2, .ok (some s.2))

/-- Runs that crash one after the other, each after the given number of epochs. -/
def crashedRuns (epoch : ℕ → W → W) (init : W) (epochs : ℕ) : List ℕ → Checkpoints W → Checkpoints W
  | [], c => c
  | n :: ns, c => crashedRuns epoch init epochs ns (trainRun epoch init epochs (some n) c).1

end
end PD
