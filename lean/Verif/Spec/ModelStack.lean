/- Networks of the same make, and the network an index stands for. -/
import Verif.Model.ModelStack

namespace PD.Spec
open PD

/-- The same names, and arrays of the same shapes. -/
def SameLayout (t u : NetTree) : Prop :=
  List.Forall₂ (fun a b => a.1 = b.1 ∧ a.2.shape = b.2.shape) t u

/-- Every array has as many entries as its shape says. -/
def FullArrays (t : NetTree) : Prop := ∀ l ∈ t, l.2.data.length = l.2.shape.prod

/-- Networks, each with parameters and state, that can be kept together. -/
structure OneMake (members : List (NetTree × NetTree)) : Prop where
  some_member : members ≠ []
  params : ∀ m ∈ members, ∀ m' ∈ members, SameLayout m.1 m'.1
  states : ∀ m ∈ members, ∀ m' ∈ members, SameLayout m.2 m'.2
  full : ∀ m ∈ members, FullArrays m.1 ∧ FullArrays m.2

/-- Index `i` stands for network number `k` of `n`: as in Python, except that an index beyond the first or the last stands
for it. -/
inductive StandsFor (n : ℕ) : ℤ → ℕ → Prop where
  | inside {k : ℕ} (h : k < n) : StandsFor n k k
  | fromEnd {k : ℕ} (h : k < n) : StandsFor n (k - n) k
  | beyond {i : ℤ} {k : ℕ} (h : (n : ℤ) ≤ i) (last : k + 1 = n) : StandsFor n i k
  | before {i : ℤ} (h : i < -(n : ℤ)) : StandsFor n i 0

/-- The average of the rates, neighbour by neighbour. -/
noncomputable def averageRates (states : ℕ) (rates : List (List ℝ)) : List ℝ :=
  (List.range states).map (fun j => (rates.map (fun r => r.getD j 0)).sum / rates.length)

end PD.Spec
