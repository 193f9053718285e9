/- Model of the pictures of frames: plotting_utils.py:43-153 and 177-209, and `render` of the environment.
A picture is what matplotlib is told to draw: the points of each series, the text, the outline and the limits of
the axes.  Marker sizes, colours, ticks and the pixels matplotlib makes of it are not modelled. -/
import Verif.Model.Plotting
import Verif.Model.Environment

namespace PD

/-- What is drawn in one set of axes. -/
structure FramePicture (K : Type) where
  carbons : List (V2 K)
  silicons : List (V2 K)
  goal : List (V2 K)
  control : List (V2 K)
  stamp : Option (V2 K × List Char)
  outline : List (V2 K)
  xlim : K × K
  ylim : K × K
  deriving DecidableEq

/-- The points of `ax.plot(a[0], a[1], ...)` (plotting_utils.py:74, 78-80).  For an array of shape `(2,)` that is
one point.  For an array of shape `(n, 2)` the first row holds the abscissas and the second row the ordinates
of two points; without a second row indexing raises `IndexError`.  Points and other objects cannot be indexed. -/
def markers {K : Type} : Obj K → Except Err (List (V2 K))
  | .array1 p => .ok [p]
  | .array2 (a :: b :: _) => .ok [⟨a.x, b.x⟩, ⟨a.y, b.y⟩]
  | .array2 _ => .error .indexError
  | _ => .error .typeError

/-- `None` draws nothing (plotting_utils.py:73 and 77). -/
def markersOpt {K : Type} : Option (Obj K) → Except Err (List (V2 K))
  | none => .ok []
  | some a => markers a

/-- `np.min` of a list: `ValueError` if it is empty. -/
def leastOf {K : Type} [LinearOrder K] : List K → Except Err K
  | [] => .error .valueError
  | x :: xs => .ok (xs.foldl min x)

/-- `np.max` of a list: `ValueError` if it is empty. -/
def greatestOf {K : Type} [LinearOrder K] : List K → Except Err K
  | [] => .error .valueError
  | x :: xs => .ok (xs.foldl max x)

/-- plotting_utils.py:83-91: the time, written at the lower left of the atoms. -/
def timeStamp {K : Type} [LinearOrder K] (g : Grid K) : Option Timedelta → Except Err (Option (V2 K × List Char))
  | none => .ok none
  | some t =>
    match leastOf (g.positions.map (·.x)), leastOf (g.positions.map (·.y)) with
    | .ok x, .ok y => .ok (some (⟨x, y⟩, formatTimedelta t))
    | .error e, _ => .error e
    | _, .error e => .error e

/-- plotting_utils.py:43-91 `_plot_atomic_grid`, with the limits that the callers set later.  A mask of the wrong
length raises `IndexError`. -/
def plotAtomicGrid {K : Type} [LinearOrder K] (g : Grid K) (goal control : Option (Obj K)) (t : Option Timedelta)
    (outline : List (V2 K)) (xlim ylim : K × K) : Except Err (FramePicture K) :=
  if g.positions.length ≠ g.numbers.length then .error .indexError
  else
    let carbons := maskSelect (g.numbers.map (fun n => decide (n = CARBON))) g.positions
    let silicons := maskSelect (g.numbers.map (fun n => decide (n = SILICON))) g.positions
    match markersOpt goal with
    | .error e => .error e
    | .ok goal =>
      match markersOpt control with
      | .error e => .error e
      | .ok control =>
        match timeStamp g t with
        | .error e => .error e
        | .ok stamp => .ok ⟨carbons, silicons, goal, control, stamp, outline, xlim, ylim⟩

/-- plotting_utils.py:94-107 `plot_microscope_frame`: the axes show the unit square. -/
def plotMicroscopeFrame {K : Type} [Field K] [LinearOrder K] (g : Grid K) (goal control : Option (Obj K))
    (t : Option Timedelta) : Except Err (FramePicture K) :=
  plotAtomicGrid g goal control t [] (0, 1) (0, 1)

/-- plotting_utils.py:132-139 `fov_bounds`: the corners in turn, and the first one again. -/
def fovBounds {K : Type} (f : Fov K) : List (V2 K) :=
  [⟨f.lowerLeft.x, f.lowerLeft.y⟩, ⟨f.upperRight.x, f.lowerLeft.y⟩, ⟨f.upperRight.x, f.upperRight.y⟩,
    ⟨f.lowerLeft.x, f.upperRight.y⟩, ⟨f.lowerLeft.x, f.lowerLeft.y⟩]

/-- plotting_utils.py:144-153: the range of the coordinates, widened by a twentieth on both sides. -/
def paddedLimits {K : Type} [Field K] [LinearOrder K] (xs : List K) : Except Err (K × K) :=
  match leastOf xs, greatestOf xs with
  | .ok lo, .ok hi =>
    let padding := (hi - lo) * (1 / 20)
    .ok (lo - padding, hi + padding)
  | .error e, _ => .error e
  | _, .error e => .error e

/-- plotting_utils.py:110-153 `plot_material_frame`. -/
def plotMaterialFrame {K : Type} [Field K] [LinearOrder K] (g : Grid K) (goal control : Option (Obj K))
    (t : Option Timedelta) (fov : Option (Fov K)) : Except Err (FramePicture K) :=
  match plotAtomicGrid g goal control t ((fov.map fovBounds).getD []) (0, 0) (0, 0) with
  | .error e => .error e
  | .ok pic =>
    match paddedLimits (g.positions.map (·.x)) with
    | .error e => .error e
    | .ok xlim =>
      match paddedLimits (g.positions.map (·.y)) with
      | .error e => .error e
      | .ok ylim => .ok { pic with xlim := xlim, ylim := ylim }

/-- plotting_utils.py:177-209 `plot_frame`: the two pictures and the image beside them.  Goal and control are
converted together, as the two atoms of a grid; `np.stack` raises `ValueError` if there is no control.  (The
image is shown if the log contains images and the frame has one, and a frame can only have an image of the log.) -/
def drawFrame {K Img : Type} [Field K] [LinearOrder K] (goal : V2 K) (f : VideoFrame K Img) :
    Except Err (FramePicture K × FramePicture K × Option Img) :=
  match f.grid with
  | none => .error .attributeError
  | some g =>
    match plotMaterialFrame g (some (.array1 goal)) (f.controlPosition.map .array1) (some f.timedelta) f.fov with
    | .error e => .error e
    | .ok material =>
      match f.fov with
      | none => .error .attributeError
      | some fov =>
        let microscopeGrid := fov.gridToMicroscope g
        match f.controlPosition with
        | none => .error .valueError
        | some control =>
          match (fov.gridToMicroscope ⟨[goal, control], []⟩).positions with
          | a :: b :: _ =>
            match plotMicroscopeFrame microscopeGrid (some (.array1 a)) (some (.array1 b)) none with
            | .error e => .error e
            | .ok microscope => .ok (material, microscope, f.image)
          | _ => .error .indexError

/-- plotting_utils.py:156-260 `generate_video_from_simulator_events`: the pictures of the frames, each drawn when the
animation gets to it. -/
def videoPictures {K Img : Type} [Field K] [LinearOrder K] (events : List (LogEvent K Img)) (goal : V2 K) :
    List (Except Err (FramePicture K × FramePicture K × Option Img)) :=
  (videoFrames events).map (drawFrame goal)

/-- putting_dune_environment.py:166-190 `render`, up to the picture that is turned into pixels.  The beam
position is `np.asarray(position.coords)`, an array of shape `(1, 2)`. -/
def renderObservation {K Img : Type} [Field K] [LinearOrder K] (goal : AnyGoal K) (o : Observation K Img) :
    Except Err (FramePicture K) :=
  let beam : Option (Obj K) := o.controls.getLast?.map (fun c => .array2 [c.position])
  match goal with
  | .other => plotMicroscopeFrame o.grid none beam none
  | .singleSilicon s =>
    match o.fov.materialFrameToMicroscopeFrame (.array1 s.goal) with
    | .error e => .error e
    | .ok g => plotMicroscopeFrame o.grid (some g) beam none

/-- putting_dune_environment.py:166-190 `render` of an environment whose goal is a `SingleSiliconGoalReaching`. -/
def Env.render {K G O P Img : Type} [Field K] [LinearOrder K] (s : Env K G O P Img) : Except Err (FramePicture K) :=
  renderObservation (.singleSilicon s.goal) s.last

end PD
