/- Specification for C122: the data points an experiment in the simulator should yield, told from the
true sheets rather than from the images. -/
import Verif.Spec.DataPoints
import Verif.Spec.Lattice

namespace PD.Spec
open PD
variable {G O P Img : Type}

/-- Around the atom at `si` the sheet looks like graphene: three bonds of at most 1.5 Å to `nbrs`, no
two in the same direction, every other atom more than 2 Å away, and at least ten atoms within
3.75 Å. -/
structure Honeycomb (ps : List (V2 ℝ)) (si : V2 ℝ) (nbrs : List (V2 ℝ)) : Prop where
  mem : si ∈ ps
  three : nbrs.length = 3
  nodup : nbrs.Nodup
  other : si ∉ nbrs
  bonds : ∀ p ∈ nbrs, p ∈ ps ∧ dist si p ≤ 3 / 2
  apart : ∀ p ∈ nbrs, ∀ q ∈ nbrs, p ≠ q → cross (p - si) (q - si) ≠ 0 ∨ dot (p - si) (q - si) < 0
  far : ∀ p ∈ ps, p ≠ si → p ∉ nbrs → 2 < dist si p
  ten : ∃ qs : List (V2 ℝ), qs.Nodup ∧ qs.length = 10 ∧ ∀ q ∈ qs, q ∈ ps ∧ dist si q ≤ 15 / 4

/-- The data point `d` tells what happened to a silicon that was at `si` with the neighbours `nbrs`
and went to `si'` while the beam stood at `beam` for the time of the control `c`.  The point has the
control's time, current and voltage; the place of the beam as seen from the silicon, in the frame whose
first axis points to the neighbour `q` nearest the beam; and as next state 0 if the silicon stayed, or
else 1, 2 or 3, the rank of the place it went to among the neighbours in counter-clockwise order,
starting with `q`. -/
def Tells (si : V2 ℝ) (nbrs : List (V2 ℝ)) (si' : V2 ℝ) (c : BeamControl ℝ) (beam : V2 ℝ)
    (d : DataPoint) : Prop :=
  d.secondsBetween = (c.dwellTime : ℝ) / 1000000 ∧ d.current = c.currentNa ∧
  d.voltage = c.voltageKv ∧
  ∃ q ∈ nbrs, (∀ p ∈ nbrs, dist beam q ≤ dist beam p) ∧ d.beamPos = along (q - si) (beam - si) ∧
    ∃ θ : V2 ℝ → ℝ, (∀ p ∈ nbrs, CcwAngle (q - si) (p - si) (θ p)) ∧
      ((si' = si ∧ d.nextState = 0) ∨
        (si' ∈ nbrs ∧ d.nextState = 1 + (nbrs.filter (fun p => decide (θ p < θ si'))).length))

/-- Steps with one control each, made from the state `s`: the control, the true sheet after the step
and the observation it returned. -/
inductive Recorded (cfg : SimCfg ℝ G O P Img) :
    Sim ℝ G O P → List (BeamControl ℝ × Grid ℝ × Observation ℝ Img) → Prop
  | done (s) : Recorded cfg s []
  | step {s s' c sheet o rest} (returnImage : Bool)
      (h : Sim.step cfg [c] returnImage s = .ok o s') (hg : s'.ctx.mat.grid = some sheet)
      (hr : Recorded cfg s' rest) : Recorded cfg s ((c, sheet, o) :: rest)

/-- In a recorded step from `sheet` to `sheet'` the silicon started from a place that looks like
graphene and ended at most 5.5 Å from it. -/
def Clean (sheet sheet' : Grid ℝ) : Prop :=
  ∀ si si', silicons sheet = [si] → silicons sheet' = [si'] →
    (∃ nbrs, Honeycomb sheet.positions si nbrs) ∧ dist si si' ≤ 11 / 2

/-- Every step of a record that starts with the true sheet `sheet` leads from a sheet to one that `R`
relates it to. -/
def AllSteps (R : Grid ℝ → Grid ℝ → Prop) :
    Grid ℝ → List (BeamControl ℝ × Grid ℝ × Observation ℝ Img) → Prop
  | _, [] => True
  | sheet, (_, sheet', _) :: rest => R sheet sheet' ∧ AllSteps R sheet' rest

/-- In a step from `sheet` to `sheet'` on a sheet of `n` columns, laid out by the map `m` of the honeycomb
into the plane, the silicon started at least two bond lengths from the lower and left and three from the
upper and right sides, and ended at most 5.5 Å from there. -/
def InnerStep (n : ℕ) (m : V2 ℝ → V2 ℝ) (sheet sheet' : Grid ℝ) : Prop :=
  ∀ si si', silicons sheet = [si] → silicons sheet' = [si'] → dist si si' ≤ 11 / 2 ∧
    ∃ u, HoneycombPoint u ∧ si = m u ∧ (2 ≤ u.x ∧ u.x ≤ n - 3) ∧ (2 ≤ u.y ∧ u.y ≤ n - 3)

/-- In a step from `sheet` to `sheet'` the silicon started at most `r` from the origin and moved at most
`d`. -/
def DiscStep (r d : ℝ) (sheet sheet' : Grid ℝ) : Prop :=
  ∀ si si', silicons sheet = [si] → silicons sheet' = [si'] → dist ⟨0, 0⟩ si ≤ r ∧ dist si si' ≤ d

/-- In a step from `sheet` to `sheet'` the silicon moved at most `d`. -/
def Moves (d : ℝ) (sheet sheet' : Grid ℝ) : Prop :=
  ∀ si si', silicons sheet = [si] → silicons sheet' = [si'] → dist si si' ≤ d

/-- The data points a record should yield, when it starts with the true sheet `sheet` seen in the field
of view `f`.  A step after which the silicon is where it was or at one of its neighbours yields the
point that tells so; a step after which it is elsewhere yields none. -/
inductive Yields : Grid ℝ → Fov ℝ → List (BeamControl ℝ × Grid ℝ × Observation ℝ Img) →
    List DataPoint → Prop
  | nil (sheet f) : Yields sheet f [] []
  | kept {sheet f c sheet' o rest si si' nbrs d ds} (hsi : silicons sheet = [si])
      (hsi' : silicons sheet' = [si']) (hn : Honeycomb sheet.positions si nbrs)
      (near : si' = si ∨ si' ∈ nbrs)
      (tells : Tells si nbrs si' c (lerp f.lowerLeft f.upperRight c.position) d)
      (hr : Yields sheet' o.fov rest ds) : Yields sheet f ((c, sheet', o) :: rest) (d :: ds)
  | left {sheet f c sheet' o rest si si' nbrs ds} (hsi : silicons sheet = [si])
      (hsi' : silicons sheet' = [si']) (hn : Honeycomb sheet.positions si nbrs)
      (away : si' ≠ si ∧ si' ∉ nbrs)
      (hr : Yields sheet' o.fov rest ds) : Yields sheet f ((c, sheet', o) :: rest) ds

end PD.Spec
