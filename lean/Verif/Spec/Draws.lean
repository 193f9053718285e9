/- Even draws. -/
import Verif.Spec.Chance
import Verif.Spec.Goal
import Verif.Model.Environment
import Verif.Model.Lattice
import Mathlib.Probability.ConditionalProbability

namespace PD.Spec
open PD MeasureTheory ProbabilityTheory

/-- The even distribution between `lo` and `hi`. -/
noncomputable def evenOn (lo hi : ℝ) : Measure ℝ := cond volume (Set.Icc lo hi)

/-- A perfect generator whose numbers and indices are moreover evenly distributed, independently of what is drawn
afterwards. -/
structure FairDraws {G : Type} [MeasurableSpace G] (rng : Rng ℝ G) (μ : Measure G) : Prop extends Fair rng μ where
  uniform_measurable : ∀ lo hi : ℝ, lo < hi → Measurable (rng.uniform lo hi)
  uniform : ∀ lo hi : ℝ, lo < hi → ∀ A : Set ℝ, MeasurableSet A → ∀ E : Set G, MeasurableSet E →
    μ {g | (rng.uniform lo hi g).1 ∈ A ∧ (rng.uniform lo hi g).2 ∈ E} = evenOn lo hi A * μ E
  choice_measurable : ∀ n : ℕ, Measurable (rng.choice n)
  choice : ∀ n i : ℕ, i < n → ∀ E : Set G, MeasurableSet E →
    μ {g | (rng.choice n g).1 = i ∧ (rng.choice n g).2 ∈ E} = (n : ENNReal)⁻¹ * μ E

/-- The numbers a start is made of: the two offsets of the sheet, its angle, and the side of the field of view. -/
abbrev StartNumbers := ℝ × ℝ × ℝ × ℝ

/-- All four numbers even and independent: offsets up to half a bond to either side, any angle, a side from 15 to
30 Å. -/
noncomputable def startLaw : Measure StartNumbers :=
  (evenOn (-71 / 100) (71 / 100)).prod ((evenOn (-71 / 100) (71 / 100)).prod
    ((evenOn 0 (2 * Real.pi)).prod (evenOn 15 30)))

/-- An episode on the sheet, and with the field of view, that the numbers `d` stand for. -/
def StartsAs {G O P Img : Type} (n : ℕ) (d : StartNumbers) (s : Env ℝ G O P Img) : Prop :=
  (∃ sheet, s.sim.ctx.mat.grid = some sheet ∧ sheet.positions = layOutSheet n ⟨d.1, d.2.1⟩ d.2.2.1) ∧
    s.sim.fovScale = some d.2.2.2

open Classical in
/-- The atoms in view, at their places in the material, that are between `lo` and `hi` away from the silicon. -/
noncomputable def goalSites {Img : Type} (lo hi : ℝ) (o : Observation ℝ Img) : List (V2 ℝ) :=
  (o.grid.positions.map (place o)).filter (fun p => decide (∃ si ∈ silicons o.grid, InRange lo hi p (place o si)))

end PD.Spec
