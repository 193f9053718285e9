/- Getting about on a sheet. -/
import Verif.Spec.Chance
import Verif.Spec.Lattice

namespace PD.Spec
open PD

/-- One can walk from `p` to `q` over atoms of the sheet, along bonds of 1.42 Å. -/
def Walk (sheet : List (V2 ℝ)) (p q : V2 ℝ) : Prop :=
  Relation.ReflTransGen (fun a b => a ∈ sheet ∧ b ∈ sheet ∧ dist a b = 142 / 100) p q

/-- Atom `j` is one of the three nearest to atom `i`, however ties are broken: at most two others are as near. -/
def SurelyNear (ps : List (V2 ℝ)) (i j : ℕ) : Prop :=
  i ≠ j ∧ ∃ pi pj, ps[i]? = some pi ∧ ps[j]? = some pj ∧
    ∀ ks : List ℕ, ks.Nodup → i ∉ ks → j ∉ ks →
      (∀ k ∈ ks, ∃ pk, ps[k]? = some pk ∧ dist pi pk ≤ dist pi pj) → ks.length ≤ 2

/-- The sheet with these positions whose `i`-th atom is the silicon and all others are carbons. -/
def siliconAt (ps : List (V2 ℝ)) (i : ℕ) : Grid ℝ :=
  ⟨ps, (List.range ps.length).map (fun j => if j = i then 14 else 6)⟩

/-- The silicon never sticks: for atoms at `ps` and beam positions at most `D` from the origin, the rates of all moves
are at least `ε`, together at most `B`, and there is a move to each atom that is surely one of the three nearest. -/
structure Unstuck (rate : RateFunction ℝ) (ps : List (V2 ℝ)) (D ε B : ℝ) : Prop where
  positive : 0 < ε
  moves : ∀ i, i < ps.length → ∀ beam : V2 ℝ, dist 0 beam ≤ D → ∃ ss, rate (siliconAt ps i) beam = .ok ss ∧ ss ≠ [] ∧
    sumRates ss ≤ B ∧ (∀ y ∈ ss, ε ≤ y.rate ∧ ∃ j, j < ps.length ∧ y.grid = siliconAt ps j) ∧
    ∀ j, SurelyNear ps i j → ∃ y ∈ ss, y.grid = siliconAt ps j

end PD.Spec
