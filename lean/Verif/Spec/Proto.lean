/- What it means that an object survives being written and read: numbers are rounded to float32. -/
import Verif.Model.Transitions
import Verif.Model.AlignTrajectories

namespace PD.Spec
variable {K : Type} [Field K] [LinearOrder K]

/-- The finite float32 numbers (without a bound on large exponents): 24 bits times a power of two. -/
def IsFloat32 (x : K) : Prop := ∃ m k : ℤ, x = m * 2 ^ k ∧ |m| ≤ 2 ^ 24 ∧ -149 ≤ k

/-- `y` is `x` rounded to float32: a float32 number, and none is nearer to `x`. -/
def Rounded (x y : K) : Prop := IsFloat32 y ∧ ∀ z, IsFloat32 z → |y - x| ≤ |z - x|

/-- Both coordinates rounded. -/
def PointKept (p q : V2 K) : Prop := Rounded p.x q.x ∧ Rounded p.y q.y

/-- The same atoms in the same order, their coordinates rounded. -/
def GridKept (g h : Grid K) : Prop := List.Forall₂ PointKept g.positions h.positions ∧ h.numbers = g.numbers

/-- A time of `t` microseconds is kept exactly below 16 seconds, and else up to rounding the seconds to
float32 and those to microseconds. -/
def TimeKept (K : Type) [Field K] [LinearOrder K] (t u : Timedelta) : Prop :=
  (|t| < 16000000 → u = t) ∧ ∃ y : K, Rounded ((t : K) / 1000000) y ∧ |(u : K) - y * 1000000| ≤ 1 / 2

/-- A beam control, with voltage and current present or absent as before. -/
def ControlKept (c d : BeamControl K) : Prop :=
  PointKept c.position d.position ∧ TimeKept K c.dwellTime d.dwellTime ∧
    Option.Rel Rounded c.voltageKv d.voltageKv ∧ Option.Rel Rounded c.currentNa d.currentNa

/-- A field of view. -/
def FovKept (f g : Fov K) : Prop := PointKept f.lowerLeft g.lowerLeft ∧ PointKept f.upperRight g.upperRight

/-- An observation. -/
def ObservationKept {Img : Type} (o p : Observation K Img) : Prop :=
  GridKept o.grid p.grid ∧ FovKept o.fov p.fov ∧ List.Forall₂ ControlKept o.controls p.controls ∧
    TimeKept K o.elapsedTime p.elapsedTime ∧ p.image = o.image ∧ p.labelImage = o.labelImage

/-- A transition. -/
def TransitionKept {Img : Type} (s t : Transition K Img) : Prop :=
  GridKept s.gridBefore t.gridBefore ∧ GridKept s.gridAfter t.gridAfter ∧
  FovKept s.fovBefore t.fovBefore ∧ FovKept s.fovAfter t.fovAfter ∧
  List.Forall₂ ControlKept s.controls t.controls ∧
  t.imageBefore = s.imageBefore ∧ t.imageAfter = s.imageAfter ∧
  t.labelImageBefore = s.labelImageBefore ∧ t.labelImageAfter = s.labelImageAfter

/-- A drift. -/
def DriftKept (d e : Drift K) : Prop := List.Forall₂ PointKept d.jitter e.jitter ∧ PointKept d.drift e.drift

/-- A grid that fits the message: as many numbers as atoms, all of them 32-bit integers. -/
def GridFits (g : Grid K) : Prop :=
  g.numbers.length = g.positions.length ∧ ∀ n ∈ g.numbers, -2 ^ 31 ≤ n ∧ n < 2 ^ 31

/-- A control that says its voltage and current. -/
def ControlFull (c : BeamControl K) : Prop := c.voltageKv ≠ none ∧ c.currentNa ≠ none

end PD.Spec
