/- What a rate function may propose. -/
import Verif.Spec.Material
import Verif.Model.Material

namespace PD.Spec
variable {K : Type} [Field K] [LinearOrder K]

/-- Whatever the beam position, all successors the rate function proposes for a sheet with a single
silicon have non-negative rates and are sheets with a single silicon at the same positions; and if
the positions are distinct, the silicon has moved to one of its three nearest atoms.
`C39_pristine_swaps` and `C39_mixture_swaps` show it of the rate functions in the code. -/
structure SwapRates (rate : RateFunction K) : Prop where
  nonneg : ∀ g p ss, rate g p = .ok ss → ∀ x ∈ ss, 0 ≤ x.rate
  doped : ∀ g p ss, rate g p = .ok ss → SingleDoped g → ∀ x ∈ ss,
    SingleDoped x.grid ∧ x.grid.positions = g.positions
  swap : ∀ g p ss, rate g p = .ok ss → SingleDoped g → g.positions.Nodup → ∀ x ∈ ss,
    NeighbourSwap g x.grid

end PD.Spec
