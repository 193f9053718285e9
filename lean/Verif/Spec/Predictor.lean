/- Vocabulary for the history of a learned predictor. -/
import Verif.Model.Predictor
import Verif.Spec.AlignTrajectories

namespace PD.Spec
open PD
variable {P S : Type}

/-- The prediction of an ensemble whose inputs are preceded by `fixed`: what C70 is about. -/
noncomputable def predictionOf (ensemble : List (List ℝ → List ℝ)) (fixed : List ℝ) (cfg : PredictorCfg)
    (a : PredictArgs) : Except Err (List ℝ) :=
  learnedPredict cfg.useVoltage cfg.useCurrent
    (ensemble.map (fun net v => net (fixed ++ [v.x, v.y]))) a.grid a.beam a.current a.idx

/-- No directory holds anything. -/
def emptyDisk : Disk P := fun _ => ⟨fun _ => none, none, none⟩

/-- A predictor that was just made, and an empty disk. -/
def freshSystem (params : P) (state : S) (cfg : PredictorCfg) : PredSystem P S :=
  ⟨Predictor.fresh params state cfg, emptyDisk⟩

/-- The call is a `load`. -/
def IsLoad : PredOp P S → Prop
  | .load .. => True
  | _ => False

/-- The calls under which predictions stay those of the trained parameters: predicting, saving without fixed
context, and loading what was saved in `dir` as `step`. -/
def Keeps (dir : String) (step : ℕ) : PredOp P S → Prop
  | .train .. => False
  | .save _ _ fixed => fixed = none
  | .load d k _ _ => d = dir ∧ k = step
  | .predict _ => True

/-- A call that leaves directory `dir` alone. -/
def Spares (dir : String) : PredOp P S → Prop
  | .save d _ _ => d ≠ dir
  | _ => True

end PD.Spec
