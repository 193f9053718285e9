/- The first smallest entry is the only index that fits its description. -/
import Verif.Lemmas.Lists

namespace PD
variable {K : Type} [LinearOrder K]

theorem argmin?_eq_of {l : List K} {i : ℕ} {v : K} (hv : l[i]? = some v) (hmin : ∀ w ∈ l, v ≤ w)
    (hfirst : ∀ j, j < i → ∀ w, l[j]? = some w → v < w) : argmin? l = some i := by
  cases h : argmin? l with
  | none =>
    rw [argmin?_eq_none h] at hv
    simp at hv
  | some k =>
    obtain ⟨w, hw, hmin', hfirst'⟩ := argmin?_eq_some h
    rcases lt_trichotomy k i with hlt | rfl | hlt
    · exact absurd (hmin' v (List.mem_of_getElem? hv)) (not_le.2 (hfirst k hlt w hw))
    · rfl
    · exact absurd (hmin w (List.mem_of_getElem? hw)) (not_le.2 (hfirst' i hlt v hv))

end PD
