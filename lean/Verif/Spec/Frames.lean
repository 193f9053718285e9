/- Specification vocabulary for frames and grids, independent of the code's helpers. -/
import Verif.Model.Grid

namespace PD.Spec
variable {K : Type}

/-- The atoms of a grid as (position, atomic number) pairs, in order. -/
def atoms (g : Grid K) : List (V2 K × ℤ) := g.positions.zip g.numbers

/-- `p` lies in the closed rectangle with the given corners. -/
def Inside [LE K] (ll ur p : V2 K) : Prop := (ll.x ≤ p.x ∧ p.x ≤ ur.x) ∧ (ll.y ≤ p.y ∧ p.y ≤ ur.y)

instance [LinearOrder K] (ll ur p : V2 K) : Decidable (Inside ll ur p) := by
  unfold Inside; infer_instance

/-- `p` lies in the closed unit square. -/
def InUnit [Field K] [LinearOrder K] (p : V2 K) : Prop := Inside ⟨0, 0⟩ ⟨1, 1⟩ p

/-- The point a fraction `t` of the way across and up a rectangle. -/
def lerp [Field K] (ll ur t : V2 K) : V2 K :=
  ⟨ll.x + t.x * (ur.x - ll.x), ll.y + t.y * (ur.y - ll.y)⟩

/-- Number of silicon atoms of a grid. -/
def siliconCount (g : Grid K) : ℕ := g.numbers.count SILICON

/-- Indices carrying a silicon. -/
def IsSiliconAt (g : Grid K) (i : ℕ) : Prop := g.numbers[i]? = some SILICON

/-- Exactly one silicon, all other atoms carbon, one number per position. -/
structure SingleDoped (g : Grid K) : Prop where
  wf : g.positions.length = g.numbers.length
  one : ∃ i, i < g.numbers.length ∧ ∀ j, j < g.numbers.length →
    g.numbers[j]? = some (if j = i then SILICON else CARBON)

end PD.Spec
