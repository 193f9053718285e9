/- Vocabulary for aligned trajectories. -/
import Verif.Model.AlignTrajectories
import Verif.Spec.Merge

namespace PD.Spec
open PD
variable {K C P Img Probs : Type} [Field K] [LinearOrder K] [FloorRing K]

/-- `o'` is `o` with its field of view moved, and possibly, if `relabel`, another grid. -/
structure OnlyMoved (relabel : Bool) (o o' : Observation K Img) : Prop where
  controls : o'.controls = o.controls
  time : o'.elapsedTime = o.elapsedTime
  image : o'.image = o.image
  labelImage : o'.labelImage = o.labelImage
  moved : ∃ shift, o'.fov = o.fov.shift shift
  width : o'.fov.width = o.fov.width
  height : o'.fov.height = o.fov.height
  grid : relabel = false → o'.grid = o.grid

/-- The state and the value that a call leaves, as a value alone. -/
def outcome {σ α : Type} : EStateM.Result Err σ α → Except Err α
  | .ok a _ => .ok a
  | .error e _ => .error e

/-- One pass over the observations `obs` with an aligner in state `s` gives `out`: the aligner reports a
drift for every observation, shown with its field of view corrected by the drifts so far, and the field of
view of every observation is corrected by all the drifts up to and including its own, times `step`. -/
def AlignedPass (ops : ImageOps K P (Option Img) Probs) (hybrid : Option (FilterOps K C × CliqueFinder))
    (relabel : Bool) (step : K) (obs out : List (Observation K Img)) (s s' : ImageState K C P) : Prop :=
  ∃ (drifts : List (V2 K)) (states : ℕ → ImageState K C P),
    drifts.length = obs.length ∧ out.length = obs.length ∧ states 0 = s ∧ states obs.length = s' ∧
    ∀ (k : ℕ) (o : Observation K Img), obs[k]? = some o →
      ∃ (o' : Observation K Img) (d : V2 K) (found : Grid K) (probs : Probs),
        out[k]? = some o' ∧ drifts[k]? = some d ∧
        ImageState.call ops hybrid o.image (o.fov.shift (-(V2.smul step (sumOf (drifts.take k))))) none (-1)
          (states k) = .ok (found, d, probs) (states (k + 1)) ∧
        o'.fov = o.fov.shift (-(V2.smul step (sumOf (drifts.take (k + 1))))) ∧
        o'.grid = (if relabel then found else o.grid)

end PD.Spec
