/- Episodes played by an agent that looks at what it was shown. -/
import Verif.Model.Environment
import Mathlib.MeasureTheory.Measure.MeasureSpace

namespace PD.Spec
open PD

variable {G O P Img F : Type}

/-- Playing on with `policy`, which chooses each action from all time steps of the episode so far (`shown`), the
environment shows the last time step of the episode within the next `k` steps.  Each step returns, given enough rounds
for the loop over the transitions of a control. -/
def EndsWithin (cfg : EnvCfg ℝ G O P Img F) (policy : List (TimeStep F) → List ℝ) :
    ℕ → List (TimeStep F) → Env ℝ G O P Img → Prop
  | 0, _, _ => False
  | k + 1, shown, s => ∃ t s', (∃ rounds, ∀ fuel, rounds ≤ fuel →
      Env.step { cfg with sim := { cfg.sim with fuel := fuel } } (policy shown) s = .ok t s') ∧
    (t.stepType = .last ∨ EndsWithin cfg policy k (shown ++ [t]) s')

/-- Pictures drawn with a perfect generator: there are countably many (they are arrays of floating point numbers), and
after drawing one the state of the generator is distributed by `μ` again, independently of the picture. -/
structure FairImages [MeasurableSpace G] (render : Grid ℝ → Fov ℝ → P → G → Img × G) (μ : MeasureTheory.Measure G) :
    Prop where
  countable : Countable Img
  measurable : ∀ grid fov p, Measurable (fun g => (render grid fov p g).2)
  pictures_measurable : ∀ grid fov p img, MeasurableSet {g | (render grid fov p g).1 = img}
  pictures : ∀ grid fov p img, ∀ E : Set G, MeasurableSet E →
    μ {g | (render grid fov p g).1 = img ∧ (render grid fov p g).2 ∈ E} = μ {g | (render grid fov p g).1 = img} * μ E

end PD.Spec
