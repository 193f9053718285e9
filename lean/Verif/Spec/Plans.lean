/- Leading the silicon along a path. -/
import Verif.Spec.FloatRates

namespace PD.Spec
open PD

/-- The path leads from the atom `x` of the sheet `ps` to the atom `y`, each time to one of three neighbours; `y` has three
neighbours, too. -/
def Trail (ps : List (V2 ℝ)) : V2 ℝ → List (V2 ℝ) → V2 ℝ → Prop
  | x, [], y => x = y ∧ ∃ nbrs, BondedTo ps x nbrs
  | x, p :: path, y => (∃ nbrs, BondedTo ps x nbrs ∧ p ∈ nbrs) ∧ Trail ps p path y

/-- A bound for the probability that the silicon, when the beam is held on a neighbour for `dwell` microseconds, goes there
and stays. -/
noncomputable def arriveProb (dwell : Timedelta) : ℝ :=
  24 / 25 * (1 - Real.exp (-(99 / 100 * (dwell / 1000000)))) * Real.exp (-(9 / 50 * ((dwell + 1) / 1000000)))

end PD.Spec
