/- Specification vocabulary for goals. -/
import Verif.Spec.Simulator

namespace PD.Spec
variable {K Img : Type}

/-- The silicon nearest the middle of the image (the first one among equally near ones); with a
single silicon this is that silicon. -/
def CentralSilicon [Field K] [LinearOrder K] (g : Grid K) (si : V2 K) : Prop :=
  ∃ l r, silicons g = l ++ si :: r ∧
    (∀ a ∈ l, V2.distSq ⟨1/2, 1/2⟩ si < V2.distSq ⟨1/2, 1/2⟩ a) ∧
    (∀ b ∈ r, V2.distSq ⟨1/2, 1/2⟩ si ≤ V2.distSq ⟨1/2, 1/2⟩ b)

/-- Where a point of the image lies in the material. -/
def place [Field K] (o : Observation K Img) (p : V2 K) : V2 K :=
  lerp o.fov.lowerLeft o.fov.upperRight p

/-- `a` and `b` are more than `lo` and less than `hi` apart (`0 ≤ lo`, `0 < hi`). -/
def InRange [Field K] [LinearOrder K] (lo hi : K) (a b : V2 K) : Prop :=
  lo ^ 2 < V2.distSq a b ∧ V2.distSq a b < hi ^ 2

/-- The silicon of the observation is strictly within half a bond (0.71 Å) of `goal`. -/
def AtGoal [Field K] [LinearOrder K] (goal : V2 K) (o : Observation K Img) : Prop :=
  ∃ si, CentralSilicon o.grid si ∧ V2.distSq (place o si) goal < (71 / 100 : K) ^ 2

/-- The observation shows a silicon. -/
def ShowsSilicon (o : Observation K Img) : Prop := silicons o.grid ≠ []

instance (o : Observation K Img) : Decidable (ShowsSilicon o) := by
  unfold ShowsSilicon; exact instDecidableNot

/-- The last `k` observations (there are that many) all show the silicon at the goal. -/
def EndsAtGoal [Field K] [LinearOrder K] (goal : V2 K) (k : ℕ) (os : List (Observation K Img)) :
    Prop :=
  ∃ front back, os = front ++ back ∧ back.length = k ∧ ∀ o ∈ back, AtGoal goal o

end PD.Spec
