/- What equal grids are. -/
import Verif.Model.Grid
import Mathlib.Data.List.Defs

namespace PD.Spec
variable {K : Type} [Field K] [LinearOrder K]

/-- Atoms `i` of `a` and `j` of `b` are of the same kind and at most `r` apart. -/
def SameAtom (r : K) (a b : Grid K) (i j : ℕ) : Prop :=
  ∃ p q n, a.positions[i]? = some p ∧ b.positions[j]? = some q ∧ a.numbers[i]? = some n ∧
    b.numbers[j]? = some n ∧ (p.x - q.x) ^ 2 + (p.y - q.y) ^ 2 ≤ r ^ 2

/-- Every atom of `b` is an atom of `a`, up to `r`. -/
def Covered (r : K) (a b : Grid K) : Prop :=
  a.positions.length = b.positions.length ∧ ∀ j, j < b.positions.length → ∃ i, SameAtom r a b i j

/-- The atoms are pairwise more than `r` apart. -/
def Apart (r : K) (g : Grid K) : Prop :=
  ∀ (i j : ℕ) p q, i ≠ j → g.positions[i]? = some p → g.positions[j]? = some q →
    r ^ 2 < (p.x - q.x) ^ 2 + (p.y - q.y) ^ 2

/-- A non-empty grid with a number for every atom. -/
def Proper (g : Grid K) : Prop := g.positions ≠ [] ∧ g.numbers.length = g.positions.length

end PD.Spec
