/- Specification for C142: what data points should say when positions carry small errors. -/
import Verif.Spec.SimData
import Verif.Spec.Displaced
import Verif.Spec.Proto

namespace PD.Spec
open PD
variable {Img : Type}

/-- The data point `d` tells, up to errors of size `ε`, what happened to a silicon that was at `si` with the
neighbours `nbrs` and went to `si'` while the beam stood at `beam` for the time of the control `c`.  Time, current
and voltage are those of the control.  The first axis of its frame points to a neighbour `q` that is nearest the
beam, up to `4 ε`; the place of the beam in that frame is right up to `(2 + 3 b) ε`, where `b` is how far the beam
was from the silicon; and the next state is exactly right: 0 if the silicon stayed, or else 1, 2 or 3, the rank of
the place it went to among the neighbours in counter-clockwise order, starting with `q`. -/
def TellsAbout (ε : ℝ) (si : V2 ℝ) (nbrs : List (V2 ℝ)) (si' : V2 ℝ) (c : BeamControl ℝ) (beam : V2 ℝ)
    (d : DataPoint) : Prop :=
  d.secondsBetween = (c.dwellTime : ℝ) / 1000000 ∧ d.current = c.currentNa ∧ d.voltage = c.voltageKv ∧
  ∃ q ∈ nbrs, (∀ p ∈ nbrs, dist beam q ≤ dist beam p + 4 * ε) ∧
    dist d.beamPos (along (q - si) (beam - si)) ≤ (2 + 3 * dist si beam) * ε ∧
    ∃ θ : V2 ℝ → ℝ, (∀ p ∈ nbrs, CcwAngle (q - si) (p - si) (θ p)) ∧
      ((si' = si ∧ d.nextState = 0) ∨
        (si' ∈ nbrs ∧ d.nextState = 1 + (nbrs.filter (fun p => decide (θ p < θ si'))).length))

/-- The grid `g` in the field of view `f` shows a part of the sheet: its silicon and at least the atoms within `r`
of `c`, each as the element it is and at most `ε` from its place, and nothing else. -/
def ShownNear (ε r : ℝ) (sheet : Grid ℝ) (c : V2 ℝ) (f : Fov ℝ) (g : Grid ℝ) : Prop :=
  ∃ part : Grid ℝ, part.numbers.length = part.positions.length ∧ part.positions.Nodup ∧
    (∀ a ∈ atoms part, a ∈ atoms sheet) ∧
    (∀ a ∈ atoms sheet, a.2 = SILICON ∨ dist c a.1 ≤ r → a ∈ atoms part) ∧
    g.numbers = part.numbers ∧ Displaced ε part.positions (placedOn f g).positions

/-- What is read of the time, voltage and current of a control `c`: the time is kept, and a voltage and a current if
there are any, up to rounding to float32. -/
def ControlRead (c c' : BeamControl ℝ) : Prop :=
  TimeKept ℝ c.dwellTime c'.dwellTime ∧
  (∀ v, c.voltageKv = some v → ∃ v', c'.voltageKv = some v' ∧ Rounded v v') ∧
  ∀ v, c.currentNa = some v → ∃ v', c'.currentNa = some v' ∧ Rounded v v'

/-- The data points that the observations `os`, read from a file, should yield, when they stand for a record that
starts with the true sheet `sheet` seen in the field of view `f`.  A step after which the silicon is where it was or
at one of its neighbours yields a point that tells so, up to errors of size `ε`, with time, current and voltage as
read; a step after which it is elsewhere yields none. -/
inductive YieldsAbout (ε : ℝ) : Grid ℝ → Fov ℝ → List (BeamControl ℝ × Grid ℝ × Observation ℝ Img) →
    List (Observation ℝ Img) → List DataPoint → Prop
  | nil (sheet f) : YieldsAbout ε sheet f [] [] []
  | kept {sheet f c sheet' o rest o' os c' si si' nbrs d ds} (hsi : silicons sheet = [si])
      (hsi' : silicons sheet' = [si']) (hn : Honeycomb sheet.positions si nbrs)
      (near : si' = si ∨ si' ∈ nbrs) (hc : o'.controls = [c']) (read : ControlRead c c')
      (tells : TellsAbout ε si nbrs si' c' (lerp f.lowerLeft f.upperRight c.position) d)
      (hr : YieldsAbout ε sheet' o.fov rest os ds) :
      YieldsAbout ε sheet f ((c, sheet', o) :: rest) (o' :: os) (d :: ds)
  | left {sheet f c sheet' o rest o' os si si' nbrs ds} (hsi : silicons sheet = [si])
      (hsi' : silicons sheet' = [si']) (hn : Honeycomb sheet.positions si nbrs)
      (away : si' ≠ si ∧ si' ∉ nbrs)
      (hr : YieldsAbout ε sheet' o.fov rest os ds) :
      YieldsAbout ε sheet f ((c, sheet', o) :: rest) (o' :: os) ds

end PD.Spec
