/- Vocabulary for rate-learning data points. -/
import Verif.Model.DataPoints
import Verif.Spec.Geometry
import Verif.Spec.Simulator

namespace PD.Spec
open PD

/-- The grid of an image, laid over the piece of material the image shows. -/
noncomputable def placedOn (f : Fov ℝ) (g : Grid ℝ) : Grid ℝ :=
  ⟨g.positions.map (lerp f.lowerLeft f.upperRight), g.numbers⟩

/-- `θ` is the angle, counter-clockwise and in `[0, 2π)`, from the direction `u` to the direction
`v`. -/
def CcwAngle (u v : V2 ℝ) (θ : ℝ) : Prop :=
  (0 ≤ θ ∧ θ < 2 * Real.pi) ∧ dot u v = len u * len v * Real.cos θ ∧
    cross u v = len u * len v * Real.sin θ

/-- Atom `i`, at `si`, has exactly three atoms within 2 Å, at the positions `nbrs`, and every other
atom is more than 2 Å away. -/
def ThreeBonds (ps : List (V2 ℝ)) (i : ℕ) (si : V2 ℝ) (nbrs : List (V2 ℝ)) : Prop :=
  ps[i]? = some si ∧ nbrs.length = 3 ∧
  ∃ js : List ℕ, js.Nodup ∧ i ∉ js ∧ js.map (fun j => ps[j]?) = nbrs.map some ∧
    ∀ j p, ps[j]? = some p → j ≠ i → if j ∈ js then dist si p < 2 else 2 < dist si p

/-- Atom `i`, at `si`, has at least four atoms about equally near: each is less than half an ångström
farther than any other atom. -/
def FourClose (ps : List (V2 ℝ)) (i : ℕ) (si : V2 ℝ) : Prop :=
  ∃ js : List ℕ, js.Nodup ∧ js.length = 4 ∧ i ∉ js ∧ (∀ j ∈ js, j < ps.length) ∧
    ∀ j ∈ js, ∀ k, k ≠ i → ∀ p q, ps[j]? = some p → ps[k]? = some q →
      dist si p < dist si q + 1 / 2

/-- Four atoms, none of them silicon, are at least as near to `p` as `q` is. -/
def FourOthersNearer (g : Grid ℝ) (p q : V2 ℝ) : Prop :=
  ∃ js : List ℕ, js.Nodup ∧ js.length = 4 ∧ ∀ j ∈ js, ¬ IsSiliconAt g j ∧
    ∃ a, g.positions[j]? = some a ∧ dist p a ≤ dist p q

/-- `js` are four atoms nearest to `p`: no other atom is strictly nearer than one of them. -/
def FourNearest (ps : List (V2 ℝ)) (p : V2 ℝ) (js : List ℕ) : Prop :=
  js.Nodup ∧ js.length = 4 ∧ (∀ j ∈ js, j < ps.length) ∧
    ∀ j ∈ js, ∀ k, k ∉ js → ∀ a b, ps[j]? = some a → ps[k]? = some b → dist p a ≤ dist p b

/-- Why a transition with the grids `before` and `after` was left out. -/
def Reason (controls : ℕ) (before after : Grid ℝ) (cutoff : ℝ) : Exclusion → Prop
  | .noControls => controls ≠ 1
  | .wrongSilicons => (silicons before).length ≠ 1 ∨ (silicons after).length ≠ 1
  | .notThreefold => ∃ i si, IsSiliconAt before i ∧ before.positions[i]? = some si ∧
      ∀ nbrs, ¬ ThreeBonds before.positions i si nbrs
  | .fourfold => ∃ i si, IsSiliconAt before i ∧ before.positions[i]? = some si ∧
      FourClose before.positions i si
  | .noSiliconNeighbor => ∃ si siAfter, silicons before = [si] ∧ silicons after = [siAfter] ∧
      FourOthersNearer after si siAfter
  | .tooDistant => ∃ si p js, silicons before = [si] ∧ p ∈ before.positions ∧ dist si p < 2 ∧
      FourNearest after.positions si js ∧
      ∀ j ∈ js, ∀ q, after.positions[j]? = some q → cutoff < dist p q
  | .wrongNeighbors => False
  | .wrongNextNeighbors => False

/-- `b` written in the coordinates whose first axis points along `u`. -/
noncomputable def along (u b : V2 ℝ) : V2 ℝ := ⟨dot u b / len u, cross u b / len u⟩

/-- The label of a silicon that was at `si` with neighbours `nbrs`, is now at `siAfter`, and whose
neighbours have the counter-clockwise angles `θs`: 0 if its old place is nearest to the new one, else
one more than the number of neighbours with a smaller angle than the nearest neighbour's. -/
def IsLabel (si siAfter : V2 ℝ) (nbrs : List (V2 ℝ)) (θs : List ℝ) (label : ℕ) : Prop :=
  ((∀ p ∈ nbrs, dist siAfter si ≤ dist siAfter p) ∧ label = 0) ∨
  ∃ (k : ℕ) (p : V2 ℝ) (θ : ℝ), nbrs[k]? = some p ∧ θs[k]? = some θ ∧ dist siAfter p < dist siAfter si ∧
    (∀ p' ∈ nbrs, dist siAfter p ≤ dist siAfter p') ∧
    label = 1 + (θs.filter (fun t => decide (t < θ))).length

/-- The counter of a reason. -/
def count (c : Counters) : Exclusion → ℕ
  | .wrongSilicons => c.wrongSilicons
  | .noControls => c.noControls
  | .noSiliconNeighbor => c.noSiliconNeighbor
  | .wrongNeighbors => c.wrongNeighbors
  | .wrongNextNeighbors => c.wrongNextNeighbors
  | .tooDistant => c.tooDistant
  | .fourfold => c.fourfold
  | .notThreefold => c.notThreefold

/-- The sum of all counters. -/
def totalExcluded (c : Counters) : ℕ :=
  ([.wrongSilicons, .noControls, .noSiliconNeighbor, .wrongNeighbors, .wrongNextNeighbors,
    .tooDistant, .fourfold, .notThreefold].map (count c)).sum

end PD.Spec
