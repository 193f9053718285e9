/- Specification for C160: batches on several devices. -/
import Verif.Model.Basic

namespace PD.Spec

/-- The index is one of an array of that shape. -/
def IndexOf (shape index : List ℕ) : Prop := List.Forall₂ (fun n i => i < n) shape index

/-- The piece, from the first number up to but not including the second along each axis, has the entry at the index. -/
def HasEntry (piece : List (ℕ × ℕ)) (index : List ℕ) : Prop := List.Forall₂ (fun r i => r.1 ≤ i ∧ i < r.2) piece index

end PD.Spec
