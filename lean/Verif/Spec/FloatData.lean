/- Specification for C143: what data points computed with floating point numbers should say. -/
import Verif.Spec.NearData

namespace PD.Spec
open PD
variable {Img : Type}

/-- As `TellsAbout`, except that the time is a floating point number of seconds: it is right up to a relative error
of `2^-52`. -/
def FloatTells (ε : ℝ) (si : V2 ℝ) (nbrs : List (V2 ℝ)) (si' : V2 ℝ) (c : BeamControl ℝ) (beam : V2 ℝ)
    (d : DataPoint) : Prop :=
  |d.secondsBetween - (c.dwellTime : ℝ) / 1000000| ≤ |(c.dwellTime : ℝ) / 1000000| * 2 ^ (-52 : ℤ) ∧
  d.current = c.currentNa ∧ d.voltage = c.voltageKv ∧
  ∃ q ∈ nbrs, (∀ p ∈ nbrs, dist beam q ≤ dist beam p + 4 * ε) ∧
    dist d.beamPos (along (q - si) (beam - si)) ≤ (2 + 3 * dist si beam) * ε ∧
    ∃ θ : V2 ℝ → ℝ, (∀ p ∈ nbrs, CcwAngle (q - si) (p - si) (θ p)) ∧
      ((si' = si ∧ d.nextState = 0) ∨
        (si' ∈ nbrs ∧ d.nextState = 1 + (nbrs.filter (fun p => decide (θ p < θ si'))).length))

/-- As `YieldsAbout`, for data points computed with floating point numbers. -/
inductive FloatYields (ε : ℝ) : Grid ℝ → Fov ℝ → List (BeamControl ℝ × Grid ℝ × Observation ℝ Img) →
    List (Observation ℝ Img) → List DataPoint → Prop
  | nil (sheet f) : FloatYields ε sheet f [] [] []
  | kept {sheet f c sheet' o rest o' os c' si si' nbrs d ds} (hsi : silicons sheet = [si])
      (hsi' : silicons sheet' = [si']) (hn : Honeycomb sheet.positions si nbrs)
      (near : si' = si ∨ si' ∈ nbrs) (hc : o'.controls = [c']) (read : ControlRead c c')
      (tells : FloatTells ε si nbrs si' c' (lerp f.lowerLeft f.upperRight c.position) d)
      (hr : FloatYields ε sheet' o.fov rest os ds) :
      FloatYields ε sheet f ((c, sheet', o) :: rest) (o' :: os) (d :: ds)
  | left {sheet f c sheet' o rest o' os si si' nbrs ds} (hsi : silicons sheet = [si])
      (hsi' : silicons sheet' = [si']) (hn : Honeycomb sheet.positions si nbrs)
      (away : si' ≠ si ∧ si' ∉ nbrs)
      (hr : FloatYields ε sheet' o.fov rest os ds) :
      FloatYields ε sheet f ((c, sheet', o) :: rest) (o' :: os) ds

end PD.Spec
