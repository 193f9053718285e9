/- Vocabulary for training runs. -/
import Verif.Model.Training

namespace PD.Spec
open PD
variable {W : Type}

/-- The state after the epochs of `log`, in that order. -/
def afterEpochs (epoch : ℕ → W → W) (init : W) (log : List ℕ) : W := log.foldl (fun w k => epoch k w) init

end PD.Spec
