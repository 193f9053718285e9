/- Model of the conversions to and from protocol buffers (microscope_utils.py, putting_dune.proto).
The wire format is the protobuf library's; a message is modelled by its fields.  A field of a message is
`none` when it is not set, and then reads as the default of its type. -/
import Verif.Model.Transitions
import Verif.Model.AlignTrajectories
import Mathlib.Data.Int.Log

namespace PD
variable {K : Type} [Field K] [LinearOrder K] [FloorRing K]

/-- The spacing of float32 numbers at `x`: 24 significant bits, exponents from -126. -/
def ulp32 (x : K) : K := 2 ^ (max (Int.log 2 |x|) (-126) - 23)

/-- Rounding to float32, half to even, as protobuf does for a `float` field.  Numbers beyond the largest
float32, which become infinite, are rounded as if there were larger exponents. -/
def f32 (x : K) : K := roundHalfEven (x / ulp32 x) * ulp32 x

/-- putting_dune.proto `Point2D`. -/
structure PPoint (K : Type) where
  x : Option K := none
  y : Option K := none

/-- putting_dune.proto `Atom`. -/
structure PAtom (K : Type) where
  atomicNumber : Option ℤ := none
  position : Option (PPoint K) := none

/-- putting_dune.proto `AtomicGrid`. -/
structure PGrid (K : Type) where
  atoms : List (PAtom K) := []

/-- putting_dune.proto `BeamControl`. -/
structure PControl (K : Type) where
  position : Option (PPoint K) := none
  dwellTimeSeconds : Option K := none
  voltageKv : Option K := none
  currentNa : Option K := none

/-- putting_dune.proto `FieldOfView`. -/
structure PFov (K : Type) where
  lowerLeft : Option (PPoint K) := none
  upperRight : Option (PPoint K) := none

/-- putting_dune.proto `MicroscopeObservation`.  A tensor that is not set reads as one with `dtype` 0. -/
structure PObservation (K Img : Type) where
  grid : Option (PGrid K) := none
  fov : Option (PFov K) := none
  controls : List (PControl K) := []
  elapsedTimeSeconds : Option K := none
  image : Option Img := none
  labelImage : Option Img := none

/-- putting_dune.proto `Transition`. -/
structure PTransition (K Img : Type) where
  gridBefore : Option (PGrid K) := none
  gridAfter : Option (PGrid K) := none
  fovBefore : Option (PFov K) := none
  fovAfter : Option (PFov K) := none
  controls : List (PControl K) := []
  imageBefore : Option Img := none
  imageAfter : Option Img := none
  labelImageBefore : Option Img := none
  labelImageAfter : Option Img := none

/-- putting_dune.proto `Drift`. -/
structure PDrift (K : Type) where
  jitter : List (PPoint K) := []
  drift : Option (PPoint K) := none

/-- microscope_utils.py:32-35 `shapely_point_to_proto_point` (and 110-116, 826-831 for rows of arrays). -/
def pointToProto (p : V2 K) : PPoint K := ⟨some (f32 p.x), some (f32 p.y)⟩

/-- microscope_utils.py:38-41 `proto_point_to_shapely_point`. -/
def pointFromProto (p : PPoint K) : V2 K := ⟨p.x.getD 0, p.y.getD 0⟩

/-- `-2^31 ≤ n < 2^31`; protobuf raises `ValueError` for other values of an `int32` field. -/
def isInt32 (n : ℤ) : Bool := decide (-2 ^ 31 ≤ n) && decide (n < 2 ^ 31)

/-- microscope_utils.py:107-118: the message of atom `i`. -/
def atomToProto (g : Grid K) (i : ℕ) : Except Err (PAtom K) :=
  match g.numbers[i]?, g.positions[i]? with
  | some n, some p =>
    if isInt32 n then .ok ⟨some n, some (pointToProto p)⟩ else .error .valueError
  | _, _ => .error .indexError

/-- microscope_utils.py:104-120 `AtomicGrid.to_proto`. -/
def gridToProto (g : Grid K) : Except Err (PGrid K) :=
  match (List.range g.positions.length).mapM (atomToProto g) with
  | .error e => .error e
  | .ok atoms => .ok ⟨atoms⟩

/-- microscope_utils.py:89-102 `AtomicGrid.from_proto`. -/
def gridFromProto (g : PGrid K) : Grid K :=
  ⟨g.atoms.map (fun a => pointFromProto (a.position.getD {})), g.atoms.map (fun a => a.atomicNumber.getD 0)⟩

/-- microscope_utils.py:219-228 `BeamControl.to_proto`: `None` leaves a field unset. -/
def controlToProto (c : BeamControl K) : PControl K :=
  ⟨some (pointToProto c.position), some (f32 (totalSeconds c.dwellTime)), c.voltageKv.map f32, c.currentNa.map f32⟩

/-- microscope_utils.py:208-217 `BeamControl.from_proto`. -/
def controlFromProto (c : PControl K) : BeamControl K :=
  ⟨pointFromProto (c.position.getD {}), ofSeconds (c.dwellTimeSeconds.getD 0), some (c.voltageKv.getD 0),
    some (c.currentNa.getD 0)⟩

/-- microscope_utils.py:496-500 `MicroscopeFieldOfView.to_proto`. -/
def fovToProto (f : Fov K) : PFov K := ⟨some (pointToProto f.lowerLeft), some (pointToProto f.upperRight)⟩

/-- microscope_utils.py:482-494 `MicroscopeFieldOfView.from_proto`. -/
def fovFromProto (f : PFov K) : Fov K :=
  ⟨pointFromProto (f.lowerLeft.getD {}), pointFromProto (f.upperRight.getD {})⟩

variable {Img : Type}

/-- microscope_utils.py:586-604 `MicroscopeObservation.to_proto`. -/
def observationToProto (o : Observation K Img) : Except Err (PObservation K Img) :=
  match gridToProto o.grid with
  | .error e => .error e
  | .ok grid => .ok ⟨some grid, some (fovToProto o.fov), o.controls.map controlToProto,
      some (f32 (totalSeconds o.elapsedTime)), o.image, o.labelImage⟩

/-- microscope_utils.py:553-584 `MicroscopeObservation.from_proto`. -/
def observationFromProto (o : PObservation K Img) : Observation K Img where
  grid := gridFromProto (o.grid.getD {})
  fov := fovFromProto (o.fov.getD {})
  controls := o.controls.map controlFromProto
  elapsedTime := ofSeconds (o.elapsedTimeSeconds.getD 0)
  image := o.image
  labelImage := o.labelImage

/-- microscope_utils.py:753-757 `Trajectory.to_proto`; a trajectory is the list of its observations. -/
def trajectoryToProto (os : List (Observation K Img)) : Except Err (List (PObservation K Img)) :=
  os.mapM observationToProto

/-- microscope_utils.py:741-751 `Trajectory.from_proto`. -/
def trajectoryFromProto (os : List (PObservation K Img)) : List (Observation K Img) :=
  os.map observationFromProto

/-- microscope_utils.py:702-711: a label image is converted if the *image* is present;
`make_tensor_proto(None)` raises `ValueError`. -/
def labelToProto (image label : Option Img) : Except Err (Option Img) :=
  match image, label with
  | none, _ => .ok none
  | some _, none => .error .valueError
  | some _, some l => .ok (some l)

/-- microscope_utils.py:686-723 `Transition.to_proto`. -/
def transitionToProto (t : Transition K Img) : Except Err (PTransition K Img) :=
  match labelToProto t.imageBefore t.labelImageBefore with
  | .error e => .error e
  | .ok labelBefore =>
    match labelToProto t.imageAfter t.labelImageAfter with
    | .error e => .error e
    | .ok labelAfter =>
      match gridToProto t.gridBefore with
      | .error e => .error e
      | .ok gridBefore =>
        match gridToProto t.gridAfter with
        | .error e => .error e
        | .ok gridAfter => .ok ⟨some gridBefore, some gridAfter, some (fovToProto t.fovBefore),
            some (fovToProto t.fovAfter), t.controls.map controlToProto, t.imageBefore, t.imageAfter,
            labelBefore, labelAfter⟩

/-- microscope_utils.py:643-684 `Transition.from_proto`. -/
def transitionFromProto (t : PTransition K Img) : Transition K Img where
  gridBefore := gridFromProto (t.gridBefore.getD {})
  gridAfter := gridFromProto (t.gridAfter.getD {})
  fovBefore := fovFromProto (t.fovBefore.getD {})
  fovAfter := fovFromProto (t.fovAfter.getD {})
  controls := t.controls.map controlFromProto
  imageBefore := t.imageBefore
  imageAfter := t.imageAfter
  labelImageBefore := t.labelImageBefore
  labelImageAfter := t.labelImageAfter

/-- microscope_utils.py:825-835 `Drift.to_proto`. -/
def driftToProto (d : Drift K) : PDrift K := ⟨d.jitter.map pointToProto, some (pointToProto d.drift)⟩

/-- Storing a number in an int32 array drops its fraction. -/
def truncate (x : K) : ℤ := if 0 ≤ x then ⌊x⌋ else ⌈x⌉

/-- microscope_utils.py:809-823 `Drift.from_proto`: the jitter goes to a float32 array, the drift to an
int32 array.  (Numbers outside int32 are converted as if the array could hold them.) -/
def driftFromProto (d : PDrift K) : Drift K :=
  let v := pointFromProto (d.drift.getD {})
  ⟨d.jitter.map pointFromProto, ⟨truncate v.x, truncate v.y⟩⟩

/-- microscope_utils.py:839-874 `LabeledAlignmentTrajectory`. -/
structure LabeledTrajectory (K Img : Type) where
  trajectory : List (Observation K Img)
  drifts : List (Drift K)

/-- putting_dune.proto `LabeledAlignmentTrajectory`. -/
structure PLabeledTrajectory (K Img : Type) where
  trajectory : Option (List (PObservation K Img)) := none
  drifts : List (PDrift K) := []

/-- microscope_utils.py:869-874. -/
def labeledToProto (l : LabeledTrajectory K Img) : Except Err (PLabeledTrajectory K Img) :=
  match trajectoryToProto l.trajectory with
  | .error e => .error e
  | .ok t => .ok ⟨some t, l.drifts.map driftToProto⟩

/-- microscope_utils.py:855-867. -/
def labeledFromProto (l : PLabeledTrajectory K Img) : LabeledTrajectory K Img :=
  ⟨trajectoryFromProto (l.trajectory.getD []), l.drifts.map driftFromProto⟩

end PD
