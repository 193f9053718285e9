/- Specification for C144: what the simulator shows when it computes with floating point numbers. -/
import Verif.Model.FloatSim
import Verif.Spec.Simulator
import Verif.Spec.FloatData

namespace PD.Spec
open PD
variable {G O P Img : Type}

/-- Whatever the beam position, all successors the rate function proposes for a sheet have non-negative rates, and if the
sheet has a single silicon they are sheets with a single silicon at the same positions. -/
structure DopedRates (rate : RateFunction ℝ) : Prop where
  nonneg : ∀ g p ss, rate g p = .ok ss → ∀ x ∈ ss, 0 ≤ x.rate
  doped : ∀ g p ss, rate g p = .ok ss → SingleDoped g → ∀ x ∈ ss, SingleDoped x.grid ∧ x.grid.positions = g.positions

/-- The observation shows the sheet: the atoms that are in its field of view, each as the element it is and where the
conversion of frames puts it, and no others; with coordinates between 0 and 1; the field of view is 15 to 30 Å wide and
high, up to a thousandth; the silicon is shown in the central half of the image, and where it is shown is, put back on
the sheet, within a ten-millionth of an Å of where it is. -/
structure FloatShows (sheet : Grid ℝ) (o : Observation ℝ Img) : Prop where
  wf : o.grid.WF
  atoms : atoms o.grid = ((atoms sheet).filter
    (fun a => decide (Inside o.fov.lowerLeft o.fov.upperRight a.1))).map (fun a => (o.fov.floatToMicroscope a.1, a.2))
  unit : ∀ p ∈ o.grid.positions, InUnit p
  width : |o.fov.width - 45 / 2| ≤ 15 / 2 + 1 / 1000
  height : |o.fov.height - 45 / 2| ≤ 15 / 2 + 1 / 1000
  silicon : ∃ si q, silicons sheet = [si] ∧ silicons o.grid = [q] ∧ InSafeArea q ∧
    dist si (lerp o.fov.lowerLeft o.fov.upperRight q) ≤ 1 / 10 ^ 7

/-- Steps with one control each, made from the state `s` of the simulator that computes with floating point numbers. -/
inductive FloatRecorded (cfg : FloatSimCfg G O P Img) :
    Sim ℝ G O P → List (BeamControl ℝ × Grid ℝ × Observation ℝ Img) → Prop
  | done (s) : FloatRecorded cfg s []
  | step {s s' c sheet o rest} (returnImage : Bool)
      (h : Sim.floatStep cfg [c] returnImage s = .ok o s') (hg : s'.ctx.mat.grid = some sheet)
      (hr : FloatRecorded cfg s' rest) : FloatRecorded cfg s ((c, sheet, o) :: rest)

/-- The sheet with its atoms at the places `ps` instead. -/
def onPlaces (ps : List (V2 ℝ)) (g : Grid ℝ) : Grid ℝ := ⟨ps, g.numbers⟩

end PD.Spec
