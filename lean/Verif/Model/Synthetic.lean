/- Model of the synthetic rate-learning data drawn from the human prior (rate_learning/data_utils.py),
over the real numbers. -/
import Verif.Model.Augment
import Verif.Model.Rates

namespace PD

/-- What data_utils.py:237-285 `sample_from_prior` draws: a position, the neighbour chosen with
probabilities proportional to the rates, the number of steps to turn by, a uniform number and the length
of the observation. -/
structure SynthDraws where
  position : V2 ℝ
  chosen : ℕ
  turn : ℕ
  unif : ℝ
  observed : ℝ

/-- data_utils.py:251-256: the rates at a position. -/
noncomputable def priorRates (m : ℕ) (position : V2 ℝ) : Except Err (List ℝ) :=
  (positionRotations m position).mapM (fun q =>
    singleSiliconPriorRates q HumanPrior.default.mean HumanPrior.default.cov HumanPrior.default.maxRate)

/-- data_utils.py:209-213 `sample_exp`, compared with the length of the observation (data_utils.py:276).
The logarithm of 0 is minus infinity in the code, so that the waiting time is infinite. -/
noncomputable def happened (unif total observed : ℝ) : Bool :=
  if unif = 0 then false else decide (-Real.log unif / total < observed)

/-- data_utils.py:237-285 `sample_from_prior` (the random context is left out): label, time, rates and
position of one example. -/
noncomputable def sampleFromPrior (m : ℕ) (d : SynthDraws) : Except Err (ℤ × ℝ × List ℝ × V2 ℝ) :=
  match priorRates m d.position with
  | .error e => .error e
  | .ok rates =>
    let total := rates.sum
    let position := rotate d.position (2 * (d.turn : ℝ) * Real.pi / m)
    let next := rotateIndex d.chosen d.turn m
    let next := if happened d.unif total d.observed then next + 1 else 0
    .ok (next, d.observed, roll rates d.turn, position)

end PD
