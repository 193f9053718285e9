/- Specification for C138: the same atoms at slightly different places. -/
import Verif.Spec.Lattice

namespace PD.Spec
open PD

/-- The same atoms in the same order, each at most `η` away from where it was. -/
def Displaced (η : ℝ) (ps qs : List (V2 ℝ)) : Prop := List.Forall₂ (fun p q => dist p q ≤ η) ps qs

/-- The atoms `nbrs` are the neighbours of the atom `i`, with a gap: they are at most `near` away, and all others, but
for `i` itself, at least `far`. -/
structure Neighbours (ps : List (V2 ℝ)) (i : ℕ) (nbrs : List ℕ) (near far : ℝ) : Prop where
  three : nbrs.length = 3
  nodup : nbrs.Nodup
  other : i ∉ nbrs
  lt : ∀ j ∈ nbrs, j < ps.length
  bonds : ∀ j ∈ nbrs, ∀ p q, ps[i]? = some p → ps[j]? = some q → dist p q ≤ near
  rest : ∀ j, j ≠ i → j ∉ nbrs → ∀ p q, ps[i]? = some p → ps[j]? = some q → far ≤ dist p q

end PD.Spec
