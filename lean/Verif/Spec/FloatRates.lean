/- Specification for C146: the simple rates. -/
import Verif.Spec.FloatBeam
import Verif.Spec.FloatSim

namespace PD.Spec
open PD

/-- The simple rate of a move to the place `p`: one per second with the beam on `p`, falling to a half at a quarter of a
bond from `p`. -/
noncomputable def simpleRateAt (beam p : V2 ℝ) : ℝ := 1 / ((4 * dist beam p / (142 / 100)) ^ 2 + 1)

/-- The atom at `si` has three bonds, to `nbrs`, of 1.42 Å up to two thousandths, and every other atom is at least 2.4 Å
away. -/
structure BondedTo (ps : List (V2 ℝ)) (si : V2 ℝ) (nbrs : List (V2 ℝ)) : Prop where
  distinct : ps.Nodup
  mem : si ∈ ps
  three : nbrs.length = 3
  nodup : nbrs.Nodup
  bonds : ∀ p ∈ nbrs, p ∈ ps ∧ |dist si p - 142 / 100| ≤ 2 / 1000
  far : ∀ p ∈ ps, p ≠ si → p ∉ nbrs → 24 / 10 ≤ dist si p

/-- The successor `x` of the sheet `g` has the silicon at `p`, and the rate the beam's distance from `p` prescribes, up to
two parts in ten million. -/
def MovesTo (g : Grid ℝ) (beam : V2 ℝ) (x : Successor ℝ) (p : V2 ℝ) : Prop :=
  x.grid.positions = g.positions ∧ SingleDoped x.grid ∧ silicons x.grid = [p] ∧
  |x.rate - simpleRateAt beam p| ≤ simpleRateAt beam p * (2 / 10 ^ 7)

end PD.Spec
