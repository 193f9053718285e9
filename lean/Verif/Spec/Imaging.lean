/- What masks and images should show. -/
import Verif.Model.Imaging

namespace PD.Spec
open PD
variable {K : Type} [Field K] [LinearOrder K]

/-- The centre of pixel (`r` from the top, `c` from the left) of an image of `h`×`w` pixels, in the
microscope frame (origin at the bottom left). -/
def pixelCentre (h w r c : ℕ) : V2 K := ⟨((c : K) + 1 / 2) / w, 1 - ((r : K) + 1 / 2) / h⟩

/-- The disc of an atom (given in the microscope frame) contains a point of the sheet: the square of their
distance in ångström is below a tenth of `(Z / 6) ** intensity_exponent`. -/
def DiscContains (power : K → K) (fov : Fov K) (a : V2 K × ℤ) (q : V2 K) : Prop :=
  V2.distSq q (fov.toMaterial a.1) < power ((a.2 : K) / 6) * (1 / 10)

/-- A point of the microscope frame lies in pixel (`r`, `c`) of an image of `n`×`n` pixels (left and lower
edges belong to the pixel). -/
def InPixel (n r c : ℕ) (p : V2 K) : Prop :=
  (c : K) / n ≤ p.x ∧ p.x < ((c : K) + 1) / n ∧ 1 - ((r : K) + 1) / n ≤ p.y ∧ p.y < 1 - (r : K) / n

end PD.Spec
