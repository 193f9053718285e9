/- Vocabulary for symmetric copies of rate-learning examples. -/
import Verif.Model.Augment
import Verif.Spec.Geometry
import Mathlib.Data.Set.Function

namespace PD.Spec
open PD

/-- One example. -/
structure RatePoint where
  state : ℤ
  dt : ℝ
  rates : List ℝ
  position : V2 ℝ
  context : Option (List ℝ)

/-- Row `i` of all arrays, if they all have one. -/
def row (d : RateData) (i : ℕ) : Option RatePoint :=
  match d.states[i]?, d.dt[i]?, d.rates[i]?, d.position[i]? with
  | some s, some t, some r, some p =>
    match d.context with
    | none => some ⟨s, t, r, p, none⟩
    | some cs => (cs[i]?).map (fun c => ⟨s, t, r, p, some c⟩)
  | _, _, _, _ => none

/-- All arrays have `n` rows. -/
def HasSize (d : RateData) (n : ℕ) : Prop :=
  d.states.length = n ∧ d.dt.length = n ∧ d.rates.length = n ∧ d.position.length = n ∧
    ∀ cs, d.context = some cs → cs.length = n

/-- An example about `m` neighbours: one rate for each, and a label between 0 and `m`. -/
def Valid (m : ℕ) (p : RatePoint) : Prop := p.rates.length = m ∧ 0 ≤ p.state ∧ p.state ≤ m

/-- The place of neighbour `j` of `m`, at distance `b` from the silicon at the origin, the first one
to the right and the others counter-clockwise. -/
noncomputable def site (m : ℕ) (b : ℝ) (j : ℕ) : V2 ℝ :=
  ⟨b * Real.cos (2 * Real.pi * j / m), b * Real.sin (2 * Real.pi * j / m)⟩

/-- `p'` describes the same experiment as `p` with neighbour `j` renamed to `σ j`: same time and
context; the beam is as far from neighbour `σ j` as it was from neighbour `j` (and as far from the
silicon); the rate of `σ j` is that of `j`; and the silicon went to `σ j` if it went to `j`, and stayed
if it stayed. -/
structure SamePhysics (m : ℕ) (σ : ℕ → ℕ) (p p' : RatePoint) : Prop where
  bij : Set.BijOn σ (Set.Iio m) (Set.Iio m)
  dt : p'.dt = p.dt
  context : p'.context = p.context
  silicon : len p'.position = len p.position
  distance : ∀ b j, j < m → dist p'.position (site m b (σ j)) = dist p.position (site m b j)
  rate : ∀ j, j < m → p'.rates[σ j]? = p.rates[j]?
  stayed : p.state = 0 → p'.state = 0
  moved : ∀ j : ℕ, j < m → p.state = j + 1 → p'.state = σ j + 1

end PD.Spec
